import Verif.Proofs.Argparse

/-!
# Proofs about the command lines of each program
-/

namespace Lulua
open Spec

/-! ### Parsers -/

/-- Attributes a parser begins with. -/
def ArgParser.initial (p : ArgParser) : Dict String ArgVal :=
  p.defaults.foldl (fun d x => Dict.set d x.1 x.2)
    ((p.actions.filter fun a => a.kind ≠ .help ∧ a.kind ≠ .command).map fun a => (a.dest, a.default))

theorem toks_length (os : List GivenOpt) : os.length ≤ (os.flatMap (·.toks)).length := by
  induction os with
  | nil => simp
  | cons o os ih =>
    have : 1 ≤ o.toks.length := by
      unfold GivenOpt.toks
      split
      · simp
      · split <;> simp
    simp only [List.flatMap_cons, List.length_append, List.length_cons]
    omega

section
variable {w : ArgWorld} {sub : Text → List Text → Except ArgStop (Dict String ArgVal × List Text)}

/-- What is left to parse after the options. -/
def ArgParser.after (p : ArgParser) (os : List GivenOpt) : ArgState :=
  { ns := os.foldl GivenOpt.apply p.initial, seen := (os.map fun o => o.act.dest).reverse, todo := p.actions.filter (·.flags.isEmpty) }

theorem parseKnown_opts {p : ArgParser} {os : List GivenOpt} (h : ∀ o ∈ os, o.Ok w p.actions) {bs : List Text}
    {tb : List (Text × ArgTok)} (hb : tokens w.uni p.actions bs = .ok tb) {r : Except ArgStop ArgState}
    (hr : ∀ f, tb.length < f → parseLoop w p.actions (p.actions.map (·.help) ++ p.helps) sub f (p.after os) tb = r) :
    p.parseKnown w sub (os.flatMap (·.words) ++ bs) = (do
      let st ← r
      if p.actions.all fun a => !a.required || decide (a.dest ∈ st.seen) then .ok (st.ns, st.extras) else .error .usage) := by
  unfold ArgParser.parseKnown
  rw [tokens_opts h hb]
  have hl := toks_length os
  have : (os.flatMap (·.toks) ++ tb).length + 1 = ((os.flatMap (·.toks)).length - os.length + tb.length + 1) + os.length := by
    simp only [List.length_append]
    omega
  simp only [bind, Except.bind]
  rw [this, parseLoop_opts h]
  have h1 := hr ((os.flatMap (·.toks)).length - os.length + tb.length + 1) (by omega)
  simp only [ArgParser.after, List.append_nil] at h1 ⊢
  rw [← h1]
  rfl

/-- A parser with options only. -/
theorem parseKnown_only_opts {p : ArgParser} {os : List GivenOpt} (h : ∀ o ∈ os, o.Ok w p.actions)
    (hp : p.actions.filter (·.flags.isEmpty) = []) :
    p.parseKnown w sub (os.flatMap (·.words)) = .ok (os.foldl GivenOpt.apply p.initial, []) := by
  have h1 := parseKnown_opts (sub := sub) h (bs := []) (tb := []) rfl (r := .ok (p.after os)) (fun f hf => by
    obtain ⟨f, rfl⟩ : ∃ g, f = g + 1 := ⟨f - 1, by simp at hf; omega⟩
    have h1 : consumePositionals w (p.actions.map (·.help) ++ p.helps) sub (p.after os) [] = .ok (p.after os, []) := by
      unfold consumePositionals ArgParser.after
      simp only [hp]
      rfl
    rw [parseLoop, if_pos (by simp), h1]
    · simp [bind, Except.bind, ArgParser.after]
    · simp)
  rw [List.append_nil] at h1
  rw [h1]
  have h2 : (p.actions.all fun a => !a.required || decide (a.dest ∈ (p.after os).seen)) = true := by
    rw [List.all_eq_true]
    intro a ha
    have : a ∉ p.actions.filter (·.flags.isEmpty) := by rw [hp]; simp
    have h3 : a.flags.isEmpty = false := by
      cases hf : a.flags.isEmpty with
      | false => rfl
      | true => exact absurd (List.mem_filter.2 ⟨ha, hf⟩) this
    simp [ArgAction.required, h3]
  simp only [bind, Except.bind, h2, if_true]
  rfl

/-- Options, then the other arguments. -/
theorem parseKnown_positionals {p : ArgParser} {os : List GivenOpt} (h : ∀ o ∈ os, o.Ok w p.actions) {b : Text} {bs : List Text}
    {tb : List (Text × ArgTok)} (hb : tokens w.uni p.actions (b :: bs) = .ok ((b, .arg) :: tb)) {st : ArgState}
    (hc : consumePositionals w (p.actions.map (·.help) ++ p.helps) sub (p.after os) ((b, .arg) :: tb) = .ok (st, []))
    (ht : st.todo = []) (hs : (p.actions.all fun a => !a.required || decide (a.dest ∈ st.seen)) = true) :
    p.parseKnown w sub (os.flatMap (·.words) ++ b :: bs) = .ok (st.ns, st.extras) := by
  rw [parseKnown_opts h hb (r := .ok st) (fun f hf => parseLoop_positionals rfl hc ht f hf)]
  simp only [bind, Except.bind, hs, if_true]

/-- The other arguments are wrong. -/
theorem parseKnown_positionals_error {p : ArgParser} {os : List GivenOpt} (h : ∀ o ∈ os, o.Ok w p.actions) {b : Text} {bs : List Text}
    {tb : List (Text × ArgTok)} (hb : tokens w.uni p.actions (b :: bs) = .ok ((b, .arg) :: tb)) {e : ArgStop}
    (hc : consumePositionals w (p.actions.map (·.help) ++ p.helps) sub (p.after os) ((b, .arg) :: tb) = .error e) :
    p.parseKnown w sub (os.flatMap (·.words) ++ b :: bs) = .error e := by
  rw [parseKnown_opts h hb (r := .error e) (fun f hf => by
    obtain ⟨f, rfl⟩ : ∃ g, f = g + 1 := ⟨f - 1, by omega⟩
    exact parseLoop_positionals_error rfl hc f)]
  rfl

end

theorem start_ok {p : ArgProgram} {w : ArgWorld} {argv : List Text} {ns : Dict String ArgVal}
    (h : p.parser.parseKnown w (p.sub w) argv = .ok (ns, []))
    (hf : p.calls = true → (ns.get? "func").isSome = true) : p.start w argv = .ok ns := by
  unfold ArgProgram.start
  rw [h]
  simp only [bind, Except.bind, ne_eq, not_true_eq_false, if_false]
  rw [if_neg]
  simp only [Bool.and_eq_true, not_and]
  intro hc
  have := hf hc
  cases hx : ns.get? "func" <;> simp_all

theorem start_error {p : ArgProgram} {w : ArgWorld} {argv : List Text} {e : ArgStop}
    (h : p.parser.parseKnown w (p.sub w) argv = .error e) : p.start w argv = .error e := by
  unfold ArgProgram.start
  rw [h]
  rfl

theorem gets_of {r : Except ArgStop (Dict String ArgVal)} {ns : Dict String ArgVal} {l : List (String × ArgVal)} (h : r = .ok ns)
    (hw : (ns.map (·.1)).Nodup) (hp : ns.Perm l) : Gets r l := by
  refine ⟨ns, h, fun n v => ?_⟩
  rw [← hp.mem_iff]
  exact Dict.get?_eq_some_iff hw

theorem lastOf_snoc {α β : Type} (f : α → Option β) (os : List α) (o : α) : lastOf f (os ++ [o]) = (f o).or (lastOf f os) := by
  unfold lastOf
  rw [List.filterMap_append]
  cases h : f o with
  | none => simp [h]
  | some b => simp [h]

theorem apply_store {o : GivenOpt} (h : o.act.kind ≠ .append) (ns : Dict String ArgVal) : o.apply ns = ns.set o.act.dest o.val := by
  unfold GivenOpt.apply
  split
  · rename_i hk _ _
    exact absurd hk h
  · rfl

/-- Words that are options or not, but no mistake. -/
theorem tokens_any {u : UniNum} {acts : List ArgAction} {ws : List Text} (h : ∀ t ∈ ws, ∃ k, classify u acts t = .ok k)
    (hn : ['-', '-'] ∉ ws) : ∃ tb, tokens u acts ws = .ok tb ∧ tb.map (·.1) = ws := by
  induction ws with
  | nil => exact ⟨[], rfl, rfl⟩
  | cons t ws ih =>
    simp only [List.mem_cons, not_or] at hn
    obtain ⟨k, hk⟩ := h t List.mem_cons_self
    obtain ⟨tb, h1, h2⟩ := ih (fun t ht => h t (List.mem_cons_of_mem _ ht)) hn.2
    exact ⟨(t, k) :: tb, tokens_cons (Ne.symm hn.1) hk h1, by rw [List.map_cons, h2]⟩

/-! ### Options of the specification -/

/-- The parser knows the flag. -/
structure FlagOk (acts : List ArgAction) (act : ArgAction) (fl : Text) : Prop where
  dash : fl.head? = some '-'
  two : fl ≠ ['-', '-']
  find : findFlag acts fl = some act
  eq : '=' ∉ fl

/-- No flag contains `=`. -/
def NoEq (acts : List ArgAction) : Prop := ∀ x ∈ optionFlags acts, '=' ∉ x.1

/-- An option with a value. -/
def givenForm (f : OptForm) (s l : String) (v : Text) (act : ArgAction) (val : ArgVal) : GivenOpt :=
  match f with
  | .short => { flag := s.toList, value := some v, act, val }
  | .long => { flag := l.toList, value := some v, act, val }
  | .glued => { flag := l.toList, value := some v, glued := true, act, val }

/-- An option without value. -/
def givenFlag (long : Bool) (s l : String) (act : ArgAction) : GivenOpt := { flag := pick long s l, act, val := .flag true }

/-- An option with a value and one name. -/
def givenLong (glued : Bool) (l : String) (v : Text) (act : ArgAction) (val : ArgVal) : GivenOpt :=
  { flag := l.toList, value := some v, glued, act, val }

theorem givenForm_words (f : OptForm) (s l : String) (v : Text) (act : ArgAction) (val : ArgVal) :
    (givenForm f s l v act val).words = f.words s l v := by
  cases f <;> rfl

theorem givenFlag_words (long : Bool) (s l : String) (act : ArgAction) : (givenFlag long s l act).words = [pick long s l] := rfl

theorem givenLong_words (glued : Bool) (l : String) (v : Text) (act : ArgAction) (val : ArgVal) :
    (givenLong glued l v act val).words = longWords glued l v := by
  cases glued <;> rfl

theorem givenForm_act (f : OptForm) (s l : String) (v : Text) (act : ArgAction) (val : ArgVal) :
    (givenForm f s l v act val).act = act ∧ (givenForm f s l v act val).val = val := by
  cases f <;> exact ⟨rfl, rfl⟩

section
variable {w : ArgWorld} {acts : List ArgAction} {act : ArgAction} {val : ArgVal} {v : Text} {s l : String}

theorem givenLong_ok {glued : Bool} (hl : FlagOk acts act l.toList) (he : NoEq acts) (hk : act.kind = .store ∨ act.kind = .append)
    (hm : act.many = false) (hv : PlainWord v) (ha : argValue w act v = .ok val) : (givenLong glued l v act val).Ok w acts where
  dash := hl.dash
  two := hl.two
  flag := hl.find
  without := fun h => by cases h
  with_ := fun x hx => by
    cases hx
    exact ⟨hk, hm, hv, ha⟩
  joined := fun _ => ⟨hl.eq, he⟩

theorem givenForm_ok {f : OptForm} (hs : FlagOk acts act s.toList) (hl : FlagOk acts act l.toList) (he : NoEq acts)
    (hk : act.kind = .store ∨ act.kind = .append) (hm : act.many = false) (hv : PlainWord v) (ha : argValue w act v = .ok val) :
    (givenForm f s l v act val).Ok w acts := by
  cases f
  · exact givenLong_ok hs he hk hm hv ha
  · exact givenLong_ok hl he hk hm hv ha
  · exact givenLong_ok (glued := true) hl he hk hm hv ha

theorem givenFlag_ok {long : Bool} (hs : FlagOk acts act s.toList) (hl : FlagOk acts act l.toList) (hk : act.kind = .storeTrue) :
    (givenFlag long s l act).Ok w acts := by
  have h : FlagOk acts act (pick long s l) := by cases long <;> assumption
  exact ⟨h.dash, h.two, h.find, fun _ => ⟨hk, rfl⟩, fun _ hx => (by cases hx), fun hg => (by cases hg)⟩

theorem givenForm_apply {f : OptForm} (h : act.kind = .store) (ns : Dict String ArgVal) :
    (givenForm f s l v act val).apply ns = ns.set act.dest val := by
  rw [apply_store (by rw [(givenForm_act ..).1, h]; decide), (givenForm_act ..).1, (givenForm_act ..).2]

theorem givenLong_apply {g : Bool} (h : act.kind = .store) (ns : Dict String ArgVal) :
    (givenLong g l v act val).apply ns = ns.set act.dest val := apply_store (by rw [show (givenLong g l v act val).act = act from rfl, h]; decide) ns

theorem givenFlag_apply {b : Bool} (h : act.kind = .storeTrue) (ns : Dict String ArgVal) :
    (givenFlag b s l act).apply ns = ns.set act.dest (.flag true) :=
  apply_store (by rw [show (givenFlag b s l act).act = act from rfl, h]; decide) ns

end

theorem decimal_plain (n : Nat) : PlainWord (decimal n) := by
  unfold PlainWord
  rcases decimal_cases n with ⟨_, h⟩ | ⟨h, _⟩
  · intro hc
    have h1 : '-' ∈ decimal n := List.mem_of_mem_head? hc
    rw [h] at h1
    exact absurd (Nat.isDigit_of_mem_toDigits (by omega) (by omega) h1) (by decide)
  · omega

/-! ### `-l` and `-k` -/

/-- The options as the parsers take them. -/
def commonGiven : CommonOpt → GivenOpt
  | .layout f t => givenForm f "-l" "--layout" t layoutAction (.text t)
  | .keyboard f t => givenForm f "-k" "--keyboard" t keyboardAction (.text t)

theorem commonGiven_words (os : List CommonOpt) : (os.map commonGiven).flatMap (·.words) = os.flatMap (·.words) := by
  rw [List.flatMap_map]
  congr 1
  funext o
  cases o <;> exact givenForm_words ..

/-- A parser that begins like the three programs. -/
def commonActions (rest : List ArgAction) : List ArgAction := helpAction :: layoutAction :: keyboardAction :: rest

theorem common_ok {w : ArgWorld} {rest : List ArgAction} (hr : NoEq rest) {o : CommonOpt} (h : o.Good) :
    (commonGiven o).Ok w (commonActions rest) := by
  have he : NoEq (commonActions rest) := by
    intro x hx
    have h1 : x ∈ optionFlags [helpAction, layoutAction, keyboardAction] ∨ x ∈ optionFlags rest := by
      simpa [optionFlags, commonActions, or_assoc] using hx
    rcases h1 with h1 | h1
    · simp only [optionFlags, helpAction, layoutAction, keyboardAction, List.flatMap_cons, List.flatMap_nil, List.map_cons, List.map_nil,
        List.append_nil, List.mem_append, List.mem_cons, List.not_mem_nil, or_false] at h1
      rcases h1 with (rfl | rfl) | (rfl | rfl) | (rfl | rfl) <;> decide
    · exact hr x h1
  cases o with
  | layout f t =>
    exact givenForm_ok ⟨rfl, by decide, rfl, by decide⟩ ⟨rfl, by decide, rfl, by decide⟩ he (.inl rfl) rfl h rfl
  | keyboard f t =>
    exact givenForm_ok ⟨rfl, by decide, rfl, by decide⟩ ⟨rfl, by decide, rfl, by decide⟩ he (.inl rfl) rfl h rfl

theorem common_fold (os : List CommonOpt) (a b : ArgVal) (rest : Dict String ArgVal) :
    (os.map commonGiven).foldl GivenOpt.apply (("layout", a) :: ("keyboard", b) :: rest) =
      ("layout", orElse (lastOf CommonOpt.layout? os) .text a) :: ("keyboard", orElse (lastOf CommonOpt.keyboard? os) .text b) :: rest := by
  induction os using List.reverseRecOn with
  | nil => rfl
  | append_singleton os o ih =>
    rw [List.map_append, List.foldl_append, ih, lastOf_snoc, lastOf_snoc]
    cases o with
    | layout f t =>
      rw [List.map_singleton, List.foldl_cons, List.foldl_nil, commonGiven, givenForm_apply rfl]
      rfl
    | keyboard f t =>
      rw [List.map_singleton, List.foldl_cons, List.foldl_nil, commonGiven, givenForm_apply rfl]
      rfl

/-! ### `lulua-render` -/

theorem plainCommand_none (w : ArgWorld) (f : String)
    (sub : Text → List Text → Except ArgStop (Dict String ArgVal × List Text)) :
    (plainCommand f).parseKnown w sub [] = .ok ([("func", .func f)], []) := rfl

theorem render_noEq : NoEq [commandAction ("svg".toList :: renderCommands.map (·.1.toList)), { dest := "output", help := "Output file".toList }] := by
  intro x hx
  simp [optionFlags, commandAction] at hx

/-- Options of the program, the command with its words, the output. -/
theorem render_start {w : ArgWorld} {os : List CommonOpt} (hos : ∀ o ∈ os, o.Good) {c out : Text} {ws : List Text} (hc : PlainWord c)
    (ho : PlainWord out) (hw : ∀ t ∈ ws, ∃ k, classify w.uni renderProgram.parser.actions t = .ok k) (hd : ['-', '-'] ∉ ws)
    {ns : Dict String ArgVal} (hs : renderProgram.sub w c ws = .ok (ns, [])) {l : Dict String ArgVal}
    (hl : ns.foldl (fun d x => Dict.set d x.1 x.2)
      [("layout", orElse (lastOf CommonOpt.layout? os) .text .none),
        ("keyboard", orElse (lastOf CommonOpt.keyboard? os) .text (.text "ibmpc105".toList)), ("output", .none)] = l)
    (hf : ((Dict.set l "output" (.text out)).get? "func").isSome) :
    renderProgram.start w (os.flatMap (·.words) ++ c :: (ws ++ [out])) = .ok (Dict.set l "output" (.text out)) := by
  refine start_ok ?_ (fun _ => hf)
  rw [← commonGiven_words]
  have hok : ∀ o ∈ os.map commonGiven, o.Ok w renderProgram.parser.actions := by
    intro o ho
    obtain ⟨o, h1, rfl⟩ := List.mem_map.1 ho
    exact common_ok render_noEq (hos o h1)
  obtain ⟨tb, h1, h2⟩ := tokens_any hw hd
  have h3 := tokens_append hd h1 (tokens_plain (u := w.uni) (acts := renderProgram.parser.actions) (ts := [out])
    (fun t ht => by rw [List.mem_singleton.1 ht]; exact ho))
  have h4 := tokens_cons (plain_ne_dashes hc) (classify_plain (u := w.uni) (acts := renderProgram.parser.actions) hc) h3
  have h5 := common_fold os .none (.text "ibmpc105".toList) [("output", .none)]
  refine parseKnown_positionals (st := ⟨Dict.set l "output" (.text out), [],
    "output" :: "command" :: ((os.map commonGiven).map fun o => o.act.dest).reverse, []⟩) hok h4 ?_ rfl ?_
  · rw [List.map_singleton]
    refine (consume_command_last rfl rfl rfl rfl c out tb).trans ?_
    rw [h2]
    have h6 : takeAction w (renderProgram.parser.actions.map (·.help) ++ renderProgram.parser.helps) (renderProgram.sub w)
        (renderProgram.parser.after (os.map commonGiven)) (commandAction ("svg".toList :: renderCommands.map (·.1.toList))) (c :: ws) =
        .ok ⟨l, [], "command" :: ((os.map commonGiven).map fun o => o.act.dest).reverse,
          (renderProgram.parser.after (os.map commonGiven)).todo⟩ := by
      simp only [takeAction, commandAction, hs, bind, Except.bind]
      rw [← hl, ← h5]
      rfl
    refine (congrArg (· >>= _) h6).trans ?_
    have h7 : [out].erase ['-', '-'] = [out] := List.erase_of_not_mem (by simpa using Ne.symm (plain_ne_dashes ho))
    simp only [bind, Except.bind, takeAction, h7]
    rfl
  · simp [renderProgram, ArgAction.required, helpAction, layoutAction, keyboardAction, commandAction]

/-- The command of `lulua-render` is wrong. -/
theorem render_start_error {w : ArgWorld} {os : List CommonOpt} (hos : ∀ o ∈ os, o.Good) {c out : Text} {ws : List Text}
    (hc : PlainWord c) (ho : PlainWord out) (hw : ∀ t ∈ ws, ∃ k, classify w.uni renderProgram.parser.actions t = .ok k)
    (hd : ['-', '-'] ∉ ws) {e : ArgStop} (hs : renderProgram.sub w c ws = .error e) :
    renderProgram.start w (os.flatMap (·.words) ++ c :: (ws ++ [out])) = .error e := by
  refine start_error ?_
  rw [← commonGiven_words]
  have hok : ∀ o ∈ os.map commonGiven, o.Ok w renderProgram.parser.actions := by
    intro o ho
    obtain ⟨o, h1, rfl⟩ := List.mem_map.1 ho
    exact common_ok render_noEq (hos o h1)
  obtain ⟨tb, h1, h2⟩ := tokens_any hw hd
  have h3 := tokens_append hd h1 (tokens_plain (u := w.uni) (acts := renderProgram.parser.actions) (ts := [out])
    (fun t ht => by rw [List.mem_singleton.1 ht]; exact ho))
  have h4 := tokens_cons (plain_ne_dashes hc) (classify_plain (u := w.uni) (acts := renderProgram.parser.actions) hc) h3
  refine parseKnown_positionals_error hok h4 ?_
  rw [List.map_singleton]
  refine (consume_command_last rfl rfl rfl rfl c out tb).trans ?_
  rw [h2]
  have h6 : takeAction w (renderProgram.parser.actions.map (·.help) ++ renderProgram.parser.helps) (renderProgram.sub w)
      (renderProgram.parser.after (os.map commonGiven)) (commandAction ("svg".toList :: renderCommands.map (·.1.toList))) (c :: ws) =
      .error e := by
    simp only [takeAction, commandAction, hs, bind, Except.bind]
  exact (congrArg (· >>= _) h6).trans rfl

/-! ### Options of commands, seen by the program -/

theorem classify_unknown {u : UniNum} {acts : List ArgAction} {t : Text} (h : optionTuples acts t = []) :
    ∃ k, classify u acts t = .ok k := by
  unfold classify
  split
  · exact ⟨_, rfl⟩
  · split
    · exact ⟨_, rfl⟩
    · split
      · exact ⟨_, rfl⟩
      · simp only
        split
        · exact ⟨_, rfl⟩
        · rw [h]
          simp only
          split <;> exact ⟨_, rfl⟩

/-- No flag of the parser begins like this one. -/
def Foreign (acts : List ArgAction) (l : String) : Prop :=
  optionTuples acts l.toList = [] ∧ l.toList ≠ ['-', '-'] ∧ '=' ∉ l.toList ∧
    (l.toList.take 2 = ['-', '-'] → ∀ x ∈ optionFlags acts, l.toList.isPrefixOf x.1 = false)

theorem Foreign.flag {u : UniNum} {acts : List ArgAction} {l : String} (h : Foreign acts l) :
    (∃ k, classify u acts l.toList = .ok k) ∧ l.toList ≠ ['-', '-'] := ⟨classify_unknown h.1, h.2.1⟩

theorem Foreign.glued {u : UniNum} {acts : List ArgAction} {l : String} (h : Foreign acts l) (hl : l.toList.take 2 = ['-', '-'])
    (v : Text) : (∃ k, classify u acts (l.toList ++ '=' :: v) = .ok k) ∧ l.toList ++ '=' :: v ≠ ['-', '-'] := by
  constructor
  · apply classify_unknown
    obtain ⟨r, hr⟩ : ∃ r, l.toList = '-' :: '-' :: r := by
      match hx : l.toList, hl with
      | [], hl => simp at hl
      | [a], hl => simp at hl
      | a :: b :: r, hl =>
        simp only [List.take_succ_cons, List.take_zero, List.cons.injEq, and_true] at hl
        rw [hl.1, hl.2]
        exact ⟨r, rfl⟩
    have h1 : optionTuples acts (l.toList ++ '=' :: v) = (optionFlags acts).filterMap fun f =>
        if l.toList.isPrefixOf f.1 then some (f.2, f.1, (some v).map (true, ·)) else none := by
      have := splitFirst_some (r := v) h.2.2.1
      rw [hr] at this ⊢
      simp only [List.cons_append] at this ⊢
      unfold optionTuples
      simp only [this]
    rw [h1, List.filterMap_eq_nil_iff]
    intro x hx
    rw [h.2.2.2 hl x hx]
    rfl
  · intro hc
    have : '=' ∈ ['-', '-'] := by rw [← hc]; simp
    revert this
    decide

theorem plain_seen {u : UniNum} {acts : List ArgAction} {t : Text} (h : PlainWord t) :
    (∃ k, classify u acts t = .ok k) ∧ t ≠ ['-', '-'] := ⟨⟨_, classify_plain h⟩, plain_ne_dashes h⟩

theorem form_seen {u : UniNum} {acts : List ArgAction} {s l : String} {v : Text} (hs : Foreign acts s) (hl : Foreign acts l)
    (h2 : l.toList.take 2 = ['-', '-']) (hv : PlainWord v) (f : OptForm) :
    ∀ t ∈ f.words s l v, (∃ k, classify u acts t = .ok k) ∧ t ≠ ['-', '-'] := by
  intro t ht
  cases f with
  | short =>
    rcases List.mem_cons.1 ht with rfl | ht
    · exact hs.flag
    · rw [List.mem_singleton.1 ht]
      exact plain_seen hv
  | long =>
    rcases List.mem_cons.1 ht with rfl | ht
    · exact hl.flag
    · rw [List.mem_singleton.1 ht]
      exact plain_seen hv
  | glued =>
    rw [List.mem_singleton.1 ht]
    exact hl.glued h2 v

theorem long_seen {u : UniNum} {acts : List ArgAction} {l : String} {v : Text} (hl : Foreign acts l)
    (h2 : l.toList.take 2 = ['-', '-']) (hv : PlainWord v) (g : Bool) :
    ∀ t ∈ longWords g l v, (∃ k, classify u acts t = .ok k) ∧ t ≠ ['-', '-'] := by
  cases g with
  | true => exact form_seen hl hl h2 hv .glued
  | false => exact form_seen hl hl h2 hv .long

theorem flag_seen {u : UniNum} {acts : List ArgAction} {s l : String} (hs : Foreign acts s) (hl : Foreign acts l) (b : Bool) :
    ∀ t ∈ [pick b s l], (∃ k, classify u acts t = .ok k) ∧ t ≠ ['-', '-'] := by
  intro t ht
  rw [List.mem_singleton.1 ht]
  cases b
  · exact hs.flag
  · exact hl.flag

/-! ### Pictures -/

/-- `-s` of `svg`. -/
def styleAction : ArgAction :=
  { flags := ["-s".toList, "--style".toList], dest := "style", type := fileType, default := .resource "data/render-svg.css",
    help := "Include external stylesheet into SVG".toList }

/-- `--heatmap` of `svg`. -/
def heatmapAction : ArgAction :=
  { flags := ["--heatmap".toList], dest := "heatmap", type := yamlType, help := "Highlight keys based on heatmap data".toList }

def svgGiven : SvgOpt → GivenOpt
  | .style f t => givenForm f "-s" "--style" t styleAction (.file t)
  | .heatmap g t => givenLong g "--heatmap" t heatmapAction (.yaml t)

theorem svgGiven_words (ss : List SvgOpt) : (ss.map svgGiven).flatMap (·.words) = ss.flatMap (·.words) := by
  rw [List.flatMap_map]
  congr 1
  funext o
  cases o
  · exact givenForm_words ..
  · exact givenLong_words ..

theorem svg_noEq : NoEq svgParser.actions := by
  intro x hx
  simp only [optionFlags, svgParser, helpAction, List.flatMap_cons, List.flatMap_nil, List.map_cons, List.map_nil, List.append_nil,
    List.mem_append, List.mem_cons, List.not_mem_nil, or_false] at hx
  rcases hx with (rfl | rfl) | (rfl | rfl) | rfl <;> decide

theorem svg_ok {w : ArgWorld} {o : SvgOpt} (h : o.Good w) : (svgGiven o).Ok w svgParser.actions := by
  cases o with
  | style f t =>
    refine givenForm_ok (s := "-s") (l := "--style") ⟨rfl, by decide, rfl, by decide⟩ ⟨rfl, by decide, rfl, by decide⟩ svg_noEq (.inl rfl)
      rfl h.1 ?_
    simp [argValue, styleAction, fileType, h.2]
  | heatmap g t =>
    refine givenLong_ok (l := "--heatmap") ⟨rfl, by decide, rfl, by decide⟩ svg_noEq (.inl rfl) rfl h.1 ?_
    simp [argValue, heatmapAction, yamlType, h.2, bind, Except.bind]

theorem svg_fold (ss : List SvgOpt) : (ss.map svgGiven).foldl GivenOpt.apply svgParser.initial =
    [("style", orElse (lastOf SvgOpt.style? ss) .file (.resource "data/render-svg.css")),
      ("heatmap", orElse (lastOf SvgOpt.heatmap? ss) .yaml .none), ("func", .func "renderSvg")] := by
  induction ss using List.reverseRecOn with
  | nil => rfl
  | append_singleton ss o ih =>
    rw [List.map_append, List.foldl_append, ih, lastOf_snoc, lastOf_snoc]
    cases o with
    | style f t =>
      rw [List.map_singleton, List.foldl_cons, List.foldl_nil, svgGiven, givenForm_apply rfl]
      rfl
    | heatmap g t =>
      rw [List.map_singleton, List.foldl_cons, List.foldl_nil, svgGiven, givenLong_apply rfl]
      rfl

theorem svg_known {w : ArgWorld} {ss : List SvgOpt} (h : ∀ o ∈ ss, o.Good w)
    {sub : Text → List Text → Except ArgStop (Dict String ArgVal × List Text)} :
    svgParser.parseKnown w sub (ss.flatMap (·.words)) = .ok
      ([("style", orElse (lastOf SvgOpt.style? ss) .file (.resource "data/render-svg.css")),
        ("heatmap", orElse (lastOf SvgOpt.heatmap? ss) .yaml .none), ("func", .func "renderSvg")], []) := by
  have hok : ∀ o ∈ ss.map svgGiven, o.Ok w svgParser.actions := by
    intro o ho
    obtain ⟨o, h1, rfl⟩ := List.mem_map.1 ho
    exact svg_ok (h o h1)
  rw [← svgGiven_words, parseKnown_only_opts hok rfl, svg_fold]

theorem svg_seen {w : ArgWorld} {ss : List SvgOpt} (h : ∀ o ∈ ss, o.Good w) :
    ∀ t ∈ ss.flatMap (·.words), (∃ k, classify w.uni renderProgram.parser.actions t = .ok k) ∧ t ≠ ['-', '-'] := by
  intro t ht
  obtain ⟨o, ho, ht⟩ := List.mem_flatMap.1 ht
  have hg := h o ho
  cases o with
  | style f v =>
    exact form_seen (s := "-s") (l := "--style") ⟨rfl, by decide, by decide, by decide +kernel⟩ ⟨rfl, by decide, by decide, by decide +kernel⟩ rfl hg.1 f t ht
  | heatmap g v =>
    exact long_seen (l := "--heatmap") ⟨rfl, by decide, by decide, by decide +kernel⟩ rfl hg.1 g t ht

/-! ### `lulua-analyze` -/

theorem analyze_noEq : NoEq [commandAction (analyzeCommands.map (·.1.toList) ++ ["triadfreq".toList, "corpusstats".toList])] := by
  intro x hx
  simp [optionFlags, commandAction] at hx

/-- Options of the program, then the command with its words. -/
theorem analyze_start {w : ArgWorld} {os : List CommonOpt} (hos : ∀ o ∈ os, o.Good) {c : Text} {ws : List Text} (hc : PlainWord c)
    (hw : ∀ t ∈ ws, (∃ k, classify w.uni analyzeProgram.parser.actions t = .ok k) ∧ t ≠ ['-', '-'])
    {ns : Dict String ArgVal} (hs : analyzeProgram.sub w c ws = .ok (ns, [])) {l : Dict String ArgVal}
    (hl : ns.foldl (fun d x => Dict.set d x.1 x.2)
      [("layout", orElse (lastOf CommonOpt.layout? os) .text .none),
        ("keyboard", orElse (lastOf CommonOpt.keyboard? os) .text (.text "ibmpc105".toList))] = l)
    (hf : (Dict.get? l "func").isSome) : analyzeProgram.start w (os.flatMap (·.words) ++ c :: ws) = .ok l := by
  refine start_ok ?_ (fun _ => hf)
  rw [← commonGiven_words]
  have hok : ∀ o ∈ os.map commonGiven, o.Ok w analyzeProgram.parser.actions := by
    intro o ho
    obtain ⟨o, h1, rfl⟩ := List.mem_map.1 ho
    exact common_ok analyze_noEq (hos o h1)
  obtain ⟨tb, h1, h2⟩ := tokens_any (fun t ht => (hw t ht).1) (fun h => (hw _ h).2 rfl)
  have h4 := tokens_cons (plain_ne_dashes hc) (classify_plain (u := w.uni) (acts := analyzeProgram.parser.actions) hc) h1
  have h5 := common_fold os .none (.text "ibmpc105".toList) []
  refine parseKnown_positionals (st := ⟨l, [], "command" :: ((os.map commonGiven).map fun o => o.act.dest).reverse, []⟩) hok h4 ?_ rfl ?_
  · refine (consume_command rfl rfl c tb).trans ?_
    rw [h2]
    have h6 : takeAction w (analyzeProgram.parser.actions.map (·.help) ++ analyzeProgram.parser.helps) (analyzeProgram.sub w)
        (analyzeProgram.parser.after (os.map commonGiven))
        (commandAction (analyzeCommands.map (·.1.toList) ++ ["triadfreq".toList, "corpusstats".toList])) (c :: ws) =
        .ok ⟨l, [], "command" :: ((os.map commonGiven).map fun o => o.act.dest).reverse,
          (analyzeProgram.parser.after (os.map commonGiven)).todo⟩ := by
      simp only [takeAction, commandAction, hs, bind, Except.bind]
      rw [← hl, ← h5]
      rfl
    exact (congrArg (· >>= _) h6).trans rfl
  · simp [analyzeProgram, ArgAction.required, helpAction, layoutAction, keyboardAction, commandAction]

/-- The command of `lulua-analyze` is wrong. -/
theorem analyze_start_error {w : ArgWorld} {os : List CommonOpt} (hos : ∀ o ∈ os, o.Good) {c : Text} {ws : List Text} (hc : PlainWord c)
    (hw : ∀ t ∈ ws, (∃ k, classify w.uni analyzeProgram.parser.actions t = .ok k) ∧ t ≠ ['-', '-']) {e : ArgStop}
    (hs : analyzeProgram.sub w c ws = .error e) : analyzeProgram.start w (os.flatMap (·.words) ++ c :: ws) = .error e := by
  refine start_error ?_
  rw [← commonGiven_words]
  have hok : ∀ o ∈ os.map commonGiven, o.Ok w analyzeProgram.parser.actions := by
    intro o ho
    obtain ⟨o, h1, rfl⟩ := List.mem_map.1 ho
    exact common_ok analyze_noEq (hos o h1)
  obtain ⟨tb, h1, h2⟩ := tokens_any (fun t ht => (hw t ht).1) (fun h => (hw _ h).2 rfl)
  have h4 := tokens_cons (plain_ne_dashes hc) (classify_plain (u := w.uni) (acts := analyzeProgram.parser.actions) hc) h1
  refine parseKnown_positionals_error hok h4 ?_
  refine (consume_command rfl rfl c tb).trans ?_
  rw [h2]
  have h6 : takeAction w (analyzeProgram.parser.actions.map (·.help) ++ analyzeProgram.parser.helps) (analyzeProgram.sub w)
      (analyzeProgram.parser.after (os.map commonGiven))
      (commandAction (analyzeCommands.map (·.1.toList) ++ ["triadfreq".toList, "corpusstats".toList])) (c :: ws) = .error e := by
    simp only [takeAction, commandAction, hs, bind, Except.bind]
  exact (congrArg (· >>= _) h6).trans rfl

/-! ### `triadfreq` -/

def cutoffAction : ArgAction :=
  { flags := ["-c".toList, "--cutoff".toList], dest := "cutoff", type := floatType, default := .num (1 / 2),
    help := "Only include the top x% of all triads".toList }

def reverseAction : ArgAction :=
  { flags := ["-r".toList, "--reverse".toList], dest := "reverse", kind := .storeTrue, default := .flag false,
    help := "Reverse sorting order".toList }

def sortAction : ArgAction :=
  { flags := ["-s".toList, "--sort".toList], dest := "sort", choices := some ["weight".toList, "effort".toList, "combined".toList],
    default := .text "weight".toList, help := "Sorter".toList }

def limitAction : ArgAction :=
  { flags := ["-n".toList, "--limit".toList], dest := "limit", type := intType, default := .int 0, help := "Sorter".toList }

def triadGiven : TriadOpt → GivenOpt
  | .cutoff f t q => givenForm f "-c" "--cutoff" t cutoffAction (.num q)
  | .reverse b => givenFlag b "-r" "--reverse" reverseAction
  | .sort f t => givenForm f "-s" "--sort" t sortAction (.text t)
  | .limit f n => givenForm f "-n" "--limit" (decimal n) limitAction (.int n)

theorem triadGiven_words (ss : List TriadOpt) : (ss.map triadGiven).flatMap (·.words) = ss.flatMap (·.words) := by
  rw [List.flatMap_map]
  congr 1
  funext o
  cases o
  · exact givenForm_words ..
  · rfl
  · exact givenForm_words ..
  · exact givenForm_words ..

theorem triad_noEq : NoEq triadfreqParser.actions := by
  intro x hx
  simp only [optionFlags, triadfreqParser, helpAction, List.flatMap_cons, List.flatMap_nil, List.map_cons, List.map_nil, List.append_nil,
    List.mem_append, List.mem_cons, List.not_mem_nil, or_false] at hx
  rcases hx with (rfl | rfl) | (rfl | rfl) | (rfl | rfl) | (rfl | rfl) | rfl | rfl <;> decide

theorem triad_ok {w : ArgWorld} (hu : PlainNum w.uni) {o : TriadOpt} (h : o.Good w) : (triadGiven o).Ok w triadfreqParser.actions := by
  cases o with
  | cutoff f t q =>
    refine givenForm_ok (s := "-c") (l := "--cutoff") ⟨rfl, by decide, rfl, by decide⟩ ⟨rfl, by decide, rfl, by decide⟩ triad_noEq
      (.inl rfl) rfl h.1 ?_
    simp [argValue, cutoffAction, floatType, h.2]
  | reverse b =>
    exact givenFlag_ok (s := "-r") (l := "--reverse") ⟨rfl, by decide, rfl, by decide⟩ ⟨rfl, by decide, rfl, by decide⟩ rfl
  | sort f t =>
    refine givenForm_ok (s := "-s") (l := "--sort") ⟨rfl, by decide, rfl, by decide⟩ ⟨rfl, by decide, rfl, by decide⟩ triad_noEq
      (.inl rfl) rfl ?_ ?_
    · rcases h with rfl | rfl | rfl <;> simp [PlainWord]
    · rcases h with rfl | rfl | rfl <;> rfl
  | limit f n =>
    refine givenForm_ok (s := "-n") (l := "--limit") ⟨rfl, by decide, rfl, by decide⟩ ⟨rfl, by decide, rfl, by decide⟩ triad_noEq
      (.inl rfl) rfl (decimal_plain n) ?_
    simp [argValue, limitAction, intType, pyInt_decimal hu]

theorem triad_fold (ss : List TriadOpt) : (ss.map triadGiven).foldl GivenOpt.apply triadfreqParser.initial =
    [("cutoff", orElse (lastOf TriadOpt.cutoff? ss) .num (.num (1 / 2))),
      ("reverse", orElse (lastOf TriadOpt.reverse? ss) (fun _ => .flag true) (.flag false)),
      ("sort", orElse (lastOf TriadOpt.sort? ss) .text (.text "weight".toList)),
      ("limit", orElse (lastOf TriadOpt.limit? ss) (fun n => .int n) (.int 0)), ("func", .func "triadfreq")] := by
  induction ss using List.reverseRecOn with
  | nil => rfl
  | append_singleton ss o ih =>
    rw [List.map_append, List.foldl_append, ih, lastOf_snoc, lastOf_snoc, lastOf_snoc, lastOf_snoc, List.map_singleton, List.foldl_cons,
      List.foldl_nil]
    cases o with
    | cutoff f t q => rw [triadGiven, givenForm_apply rfl]; rfl
    | reverse b => rw [triadGiven, givenFlag_apply rfl]; rfl
    | sort f t => rw [triadGiven, givenForm_apply rfl]; rfl
    | limit f n => rw [triadGiven, givenForm_apply rfl]; rfl

theorem triad_known {w : ArgWorld} (hu : PlainNum w.uni) {ss : List TriadOpt} (h : ∀ o ∈ ss, o.Good w)
    {sub : Text → List Text → Except ArgStop (Dict String ArgVal × List Text)} :
    triadfreqParser.parseKnown w sub (ss.flatMap (·.words)) = .ok
      ([("cutoff", orElse (lastOf TriadOpt.cutoff? ss) .num (.num (1 / 2))),
        ("reverse", orElse (lastOf TriadOpt.reverse? ss) (fun _ => .flag true) (.flag false)),
        ("sort", orElse (lastOf TriadOpt.sort? ss) .text (.text "weight".toList)),
        ("limit", orElse (lastOf TriadOpt.limit? ss) (fun n => .int n) (.int 0)), ("func", .func "triadfreq")], []) := by
  have hok : ∀ o ∈ ss.map triadGiven, o.Ok w triadfreqParser.actions := by
    intro o ho
    obtain ⟨o, h1, rfl⟩ := List.mem_map.1 ho
    exact triad_ok hu (h o h1)
  rw [← triadGiven_words, parseKnown_only_opts hok rfl, triad_fold]

theorem triad_seen {w : ArgWorld} {ss : List TriadOpt} (h : ∀ o ∈ ss, o.Good w) :
    ∀ t ∈ ss.flatMap (·.words), (∃ k, classify w.uni analyzeProgram.parser.actions t = .ok k) ∧ t ≠ ['-', '-'] := by
  intro t ht
  obtain ⟨o, ho, ht⟩ := List.mem_flatMap.1 ht
  have hg := h o ho
  cases o with
  | cutoff f v q =>
    exact form_seen (s := "-c") (l := "--cutoff") ⟨rfl, by decide, by decide, by decide +kernel⟩
      ⟨rfl, by decide, by decide, by decide +kernel⟩ rfl hg.1 f t ht
  | reverse b =>
    exact flag_seen (s := "-r") (l := "--reverse") ⟨rfl, by decide, by decide, by decide +kernel⟩
      ⟨rfl, by decide, by decide, by decide +kernel⟩ b t ht
  | sort f v =>
    refine form_seen (s := "-s") (l := "--sort") ⟨rfl, by decide, by decide, by decide +kernel⟩
      ⟨rfl, by decide, by decide, by decide +kernel⟩ rfl ?_ f t ht
    rcases hg with rfl | rfl | rfl <;> simp [PlainWord]
  | limit f n =>
    exact form_seen (s := "-n") (l := "--limit") ⟨rfl, by decide, by decide, by decide +kernel⟩
      ⟨rfl, by decide, by decide, by decide +kernel⟩ rfl (decimal_plain n) f t ht

/-! ### `lulua-write` -/

def benchmarkAction : ArgAction :=
  { flags := ["--benchmark".toList], dest := "benchmark", kind := .storeTrue, default := .flag false,
    help := "Benchmark filter, no stats".toList }

def jobsAction (w : ArgWorld) : ArgAction :=
  { flags := ["-j".toList, "--jobs".toList], dest := "jobs", type := intType, default := .int w.cpus, help := "Number of parallel jobs".toList }

def verboseAction : ArgAction :=
  { flags := ["-v".toList, "--verbose".toList], dest := "verbose", kind := .storeTrue, default := .flag false,
    help := "Enable debugging output".toList }

def writeGiven (w : ArgWorld) : WriteOpt → GivenOpt
  | .benchmark => givenFlag true "--benchmark" "--benchmark" benchmarkAction
  | .jobs f n => givenForm f "-j" "--jobs" (decimal n) (jobsAction w) (.int n)
  | .keyboard f t => givenForm f "-k" "--keyboard" t keyboardAction (.text t)
  | .verbose b => givenFlag b "-v" "--verbose" verboseAction

theorem writeGiven_words (w : ArgWorld) (os : List WriteOpt) : (os.map (writeGiven w)).flatMap (·.words) = os.flatMap (·.words) := by
  rw [List.flatMap_map]
  congr 1
  funext o
  cases o
  · rfl
  · exact givenForm_words ..
  · exact givenForm_words ..
  · rfl

theorem write_noEq (w : ArgWorld) : NoEq (writeProgram w).parser.actions := by
  intro x hx
  simp only [optionFlags, writeProgram, helpAction, keyboardAction, List.flatMap_cons, List.flatMap_nil, List.map_cons, List.map_nil,
    List.append_nil, List.mem_append, List.mem_cons, List.not_mem_nil, or_false] at hx
  rcases hx with (rfl | rfl) | rfl | (rfl | rfl) | (rfl | rfl) | rfl | rfl <;> (dsimp only; decide)

theorem write_ok {w : ArgWorld} (hu : PlainNum w.uni) {o : WriteOpt} (h : o.Good) :
    (writeGiven w o).Ok w (writeProgram w).parser.actions := by
  cases o with
  | benchmark =>
    exact givenFlag_ok (s := "--benchmark") (l := "--benchmark") ⟨rfl, by decide, rfl, by decide⟩ ⟨rfl, by decide, rfl, by decide⟩ rfl
  | jobs f n =>
    refine givenForm_ok (s := "-j") (l := "--jobs") ⟨rfl, by decide, rfl, by decide⟩ ⟨rfl, by decide, rfl, by decide⟩ (write_noEq w)
      (.inl rfl) rfl (decimal_plain n) ?_
    simp [argValue, jobsAction, intType, pyInt_decimal hu]
  | keyboard f t =>
    exact givenForm_ok (s := "-k") (l := "--keyboard") ⟨rfl, by decide, rfl, by decide⟩ ⟨rfl, by decide, rfl, by decide⟩ (write_noEq w)
      (.inl rfl) rfl h rfl
  | verbose b =>
    exact givenFlag_ok (s := "-v") (l := "--verbose") ⟨rfl, by decide, rfl, by decide⟩ ⟨rfl, by decide, rfl, by decide⟩ rfl

theorem write_fold (w : ArgWorld) (os : List WriteOpt) :
    (os.map (writeGiven w)).foldl GivenOpt.apply (writeProgram w).parser.initial =
    [("benchmark", orElse (lastOf WriteOpt.benchmark? os) (fun _ => .flag true) (.flag false)),
      ("jobs", orElse (lastOf WriteOpt.jobs? os) (fun n => .int n) (.int w.cpus)),
      ("keyboard", orElse (lastOf WriteOpt.keyboard? os) .text (.text "ibmpc105".toList)),
      ("verbose", orElse (lastOf WriteOpt.verbose? os) (fun _ => .flag true) (.flag false)), ("layout", .none), ("filter", .none)] := by
  induction os using List.reverseRecOn with
  | nil => rfl
  | append_singleton os o ih =>
    rw [List.map_append, List.foldl_append, ih, lastOf_snoc, lastOf_snoc, lastOf_snoc, lastOf_snoc, List.map_singleton, List.foldl_cons,
      List.foldl_nil]
    cases o with
    | benchmark => rw [writeGiven, givenFlag_apply rfl]; rfl
    | jobs f n => rw [writeGiven, givenForm_apply rfl]; rfl
    | keyboard f t => rw [writeGiven, givenForm_apply rfl]; rfl
    | verbose b => rw [writeGiven, givenFlag_apply rfl]; rfl

theorem write_start {w : ArgWorld} (hu : PlainNum w.uni) {os : List WriteOpt} (hos : ∀ o ∈ os, o.Good) {lay : Text} (hl : PlainWord lay)
    {fs : List Text} (hne : fs ≠ []) (hp : ∀ f ∈ fs, PlainWord f) :
    (writeProgram w).start w (os.flatMap (·.words) ++ lay :: fs) =
      if fs.all (· ∈ filterAvail.map (·.1.toList)) then .ok (writeAttrs w os (.text lay) (.texts fs)) else .error .usage := by
  have hok : ∀ o ∈ os.map (writeGiven w), o.Ok w (writeProgram w).parser.actions := by
    intro o ho
    obtain ⟨o, h1, rfl⟩ := List.mem_map.1 ho
    exact write_ok hu (hos o h1)
  have h4 := tokens_cons (plain_ne_dashes hl) (classify_plain (u := w.uni) (acts := (writeProgram w).parser.actions) hl)
    (tokens_plain (u := w.uni) (acts := (writeProgram w).parser.actions) hp)
  have hel : [lay].erase ['-', '-'] = [lay] := List.erase_of_not_mem (by simpa using Ne.symm (plain_ne_dashes hl))
  have hef : fs.erase ['-', '-'] = fs := List.erase_of_not_mem fun h => plain_ne_dashes (hp _ h) rfl
  have hc := consume_one_many (w := w) (helps := (writeProgram w).parser.actions.map (·.help) ++ (writeProgram w).parser.helps)
    (sub := (writeProgram w).sub w) (st := (writeProgram w).parser.after (os.map (writeGiven w))) rfl rfl rfl rfl rfl lay fs hne
  simp only [takeAction, hel, hef, argValue, bind, Except.bind, Bool.false_eq_true, if_false, if_true] at hc
  rw [← writeGiven_words w]
  by_cases hall : fs.all (· ∈ filterAvail.map (·.1.toList)) = true
  · rw [if_pos hall]
    refine start_ok ?_ (fun h => by cases h)
    rw [if_pos hall] at hc
    refine (parseKnown_positionals hok h4 hc rfl ?_).trans ?_
    · simp [writeProgram, ArgAction.required, helpAction, keyboardAction]
    · simp only [ArgParser.after, write_fold]
      rfl
  · rw [if_neg hall]
    rw [if_neg hall] at hc
    exact start_error (parseKnown_positionals_error hok h4 hc)

/-! ### `lulua-optimize` -/

def triadLimitAction : ArgAction :=
  { flags := ["--triad-limit".toList], dest := "triadLimit", type := intType, default := .int 0,
    help := "Limit number of triads to use".toList }

def stepsAction : ArgAction :=
  { flags := ["-n".toList, "--steps".toList], dest := "steps", type := intType, default := .int 10000, help := "Number of iterations".toList }

def randomizeAction : ArgAction :=
  { flags := ["-r".toList, "--randomize".toList], dest := "randomize", kind := .storeTrue, default := .flag false,
    help := "Randomize layout before optimizing".toList }

def pinAction : ArgAction :=
  { flags := ["-p".toList, "--pin".toList], dest := "pin", type := pinType, default := .pins [], help := "Pin these layers/buttons".toList }

def modelAction : ArgAction :=
  { flags := ["-m".toList, "--model".toList], dest := "model", choices := some ["mod01".toList, "salvo".toList],
    default := .text "mod01".toList, help := "Carpalx model".toList }

def mutateAction : ArgAction :=
  { flags := ["-s".toList, "--mutate".toList], dest := "mutate", kind := .append, type := mutationType, default := .mutations [],
    help := "Apply these mutations".toList }

def optimizeGiven : OptimizeOpt → GivenOpt
  | .common o => commonGiven o
  | .triadLimit g n => givenLong g "--triad-limit" (decimal n) triadLimitAction (.int n)
  | .steps f n => givenForm f "-n" "--steps" (decimal n) stepsAction (.int n)
  | .randomize b => givenFlag b "-r" "--randomize" randomizeAction
  | .pin f ps => givenForm f "-p" "--pin" (writePins ps) pinAction (.pins ps)
  | .model f t => givenForm f "-m" "--model" t modelAction (.text t)
  | .mutate f m => givenForm f "-s" "--mutate" (writeMutation m) mutateAction (.mutations [m])

theorem optimizeGiven_words (os : List OptimizeOpt) : (os.map optimizeGiven).flatMap (·.words) = os.flatMap (·.words) := by
  rw [List.flatMap_map]
  congr 1
  funext o
  cases o with
  | common o => cases o <;> exact givenForm_words ..
  | triadLimit g n => exact givenLong_words ..
  | randomize b => rfl
  | steps | pin | model | mutate => exact givenForm_words ..

theorem decimal_head {i : Int} (h : 0 ≤ i) : ∃ c r, decimal i = c :: r ∧ c ≠ '-' := by
  rcases decimal_cases i with ⟨_, h1⟩ | ⟨h1, _⟩
  · cases hd : decimal i with
    | nil =>
      rw [hd] at h1
      exact absurd h1.symm (Nat.toDigits_ne_nil)
    | cons c r =>
      refine ⟨c, r, rfl, ?_⟩
      rintro rfl
      have h2 : '-' ∈ Nat.toDigits 10 i.toNat := by rw [← h1, hd]; simp
      exact absurd (Nat.isDigit_of_mem_toDigits (by omega) (by omega) h2) (by decide)
  · omega

theorem writePin_head {p : Int × Option Text} (h : 0 ≤ p.1) : ∃ c r, writePin p = c :: r ∧ c ≠ '-' := by
  obtain ⟨c, r, h1, h2⟩ := decimal_head h
  unfold writePin
  rw [h1]
  cases p.2 with
  | none => exact ⟨c, r, rfl, h2⟩
  | some t => exact ⟨c, _, rfl, h2⟩

theorem writePins_plain {ps : List (Int × Option Text)} (hne : ps ≠ []) (h : ∀ p ∈ ps, 0 ≤ p.1) : PlainWord (writePins ps) := by
  obtain ⟨p, ps, rfl⟩ := List.exists_cons_of_ne_nil hne
  obtain ⟨c, r, h1, h2⟩ := writePin_head (h p List.mem_cons_self)
  unfold writePins PlainWord
  rw [List.map_cons, h1]
  cases ps with
  | nil => simpa using h2
  | cons q ps => simpa [List.intercalate] using h2

theorem writeMutation_plain {m : (Int × Text) × (Int × Text)} (h : 0 ≤ m.1.1) : PlainWord (writeMutation m) := by
  obtain ⟨c, r, h1, h2⟩ := decimal_head h
  unfold writeMutation PlainWord
  rw [h1]
  simpa using h2

theorem optimize_noEq : NoEq (optimizeProgram.parser.actions.drop 3) := by
  intro x hx
  simp only [optionFlags, optimizeProgram, List.drop_succ_cons, List.drop_zero, List.flatMap_cons, List.flatMap_nil, List.map_cons,
    List.map_nil, List.append_nil, List.mem_append, List.mem_cons, List.not_mem_nil, or_false] at hx
  rcases hx with rfl | (rfl | rfl) | (rfl | rfl) | (rfl | rfl) | (rfl | rfl) | rfl | rfl <;> decide

theorem optimize_noEq' : NoEq optimizeProgram.parser.actions := by
  intro x hx
  simp only [optionFlags, optimizeProgram, helpAction, layoutAction, keyboardAction, List.flatMap_cons, List.flatMap_nil, List.map_cons,
    List.map_nil, List.append_nil, List.mem_append, List.mem_cons, List.not_mem_nil, or_false] at hx
  rcases hx with (rfl | rfl) | (rfl | rfl) | (rfl | rfl) | rfl | (rfl | rfl) | (rfl | rfl) | (rfl | rfl) | (rfl | rfl) | rfl | rfl <;> decide

theorem optimizeArgs_ok {w : ArgWorld} (hu : PlainNum w.uni) {o : OptimizeOpt} (h : o.Good) :
    (optimizeGiven o).Ok w optimizeProgram.parser.actions := by
  cases o with
  | common o => exact common_ok optimize_noEq h
  | triadLimit g n =>
    refine givenLong_ok (l := "--triad-limit") ⟨rfl, by decide, rfl, by decide⟩ optimize_noEq' (.inl rfl) rfl (decimal_plain n) ?_
    simp [argValue, triadLimitAction, intType, pyInt_decimal hu]
  | steps f n =>
    refine givenForm_ok (s := "-n") (l := "--steps") ⟨rfl, by decide, rfl, by decide⟩ ⟨rfl, by decide, rfl, by decide⟩ optimize_noEq'
      (.inl rfl) rfl (decimal_plain n) ?_
    simp [argValue, stepsAction, intType, pyInt_decimal hu]
  | randomize b =>
    exact givenFlag_ok (s := "-r") (l := "--randomize") ⟨rfl, by decide, rfl, by decide⟩ ⟨rfl, by decide, rfl, by decide⟩ rfl
  | pin f ps =>
    refine givenForm_ok (s := "-p") (l := "--pin") ⟨rfl, by decide, rfl, by decide⟩ ⟨rfl, by decide, rfl, by decide⟩ optimize_noEq'
      (.inl rfl) rfl (writePins_plain h.1 h.2.1) ?_
    simp [argValue, pinAction, pinType, parsePin_writePins hu h.1 h.2.2]
  | model f t =>
    refine givenForm_ok (s := "-m") (l := "--model") ⟨rfl, by decide, rfl, by decide⟩ ⟨rfl, by decide, rfl, by decide⟩ optimize_noEq'
      (.inl rfl) rfl ?_ ?_
    · rcases h with rfl | rfl <;> simp [PlainWord]
    · rcases h with rfl | rfl <;> rfl
  | mutate f m =>
    refine givenForm_ok (s := "-s") (l := "--mutate") ⟨rfl, by decide, rfl, by decide⟩ ⟨rfl, by decide, rfl, by decide⟩ optimize_noEq'
      (.inr rfl) rfl (writeMutation_plain h.1) ?_
    simp [argValue, mutateAction, mutationType, parseMutation_write hu m h.2.1 h.2.2]

theorem optimize_fold (os : List OptimizeOpt) :
    (os.map optimizeGiven).foldl GivenOpt.apply optimizeProgram.parser.initial = optimizeAttrs os := by
  induction os using List.reverseRecOn with
  | nil => rfl
  | append_singleton os o ih =>
    rw [List.map_append, List.foldl_append, ih, List.map_singleton, List.foldl_cons, List.foldl_nil]
    unfold optimizeAttrs
    simp only [lastOf_snoc, List.filterMap_append]
    cases o with
    | common o =>
      cases o with
      | layout f t =>
        rw [optimizeGiven, commonGiven, givenForm_apply rfl]
        simp only [List.filterMap_cons, List.filterMap_nil, OptimizeOpt.mutate?, List.append_nil]
        rfl
      | keyboard f t =>
        rw [optimizeGiven, commonGiven, givenForm_apply rfl]
        simp only [List.filterMap_cons, List.filterMap_nil, OptimizeOpt.mutate?, List.append_nil]
        rfl
    | triadLimit g n =>
      rw [optimizeGiven, givenLong_apply rfl]
      simp only [List.filterMap_cons, List.filterMap_nil, OptimizeOpt.mutate?, List.append_nil]
      rfl
    | steps f n =>
      rw [optimizeGiven, givenForm_apply rfl]
      simp only [List.filterMap_cons, List.filterMap_nil, OptimizeOpt.mutate?, List.append_nil]
      rfl
    | randomize b =>
      rw [optimizeGiven, givenFlag_apply rfl]
      simp only [List.filterMap_cons, List.filterMap_nil, OptimizeOpt.mutate?, List.append_nil]
      rfl
    | pin f ps =>
      rw [optimizeGiven, givenForm_apply rfl]
      simp only [List.filterMap_cons, List.filterMap_nil, OptimizeOpt.mutate?, List.append_nil]
      rfl
    | model f t =>
      rw [optimizeGiven, givenForm_apply rfl]
      simp only [List.filterMap_cons, List.filterMap_nil, OptimizeOpt.mutate?, List.append_nil]
      rfl
    | mutate f m => cases f <;> rfl

theorem optimize_start {w : ArgWorld} (hu : PlainNum w.uni) {os : List OptimizeOpt} (h : ∀ o ∈ os, o.Good) :
    optimizeProgram.start w (os.flatMap (·.words)) = .ok (optimizeAttrs os) := by
  have hok : ∀ o ∈ os.map optimizeGiven, o.Ok w optimizeProgram.parser.actions := by
    intro o ho
    obtain ⟨o, h1, rfl⟩ := List.mem_map.1 ho
    exact optimizeArgs_ok hu (h o h1)
  refine start_ok ?_ (fun h => by cases h)
  rw [← optimizeGiven_words, parseKnown_only_opts hok rfl, optimize_fold]

/-! ### `lulua-report` -/

def corpusAction : ArgAction :=
  { flags := ["-c".toList, "--corpus".toList], dest := "corpus", many := true, help := "Corpus metadata files".toList }

def layoutstatsAction : ArgAction :=
  { flags := ["-l".toList, "--layoutstats".toList], dest := "layoutstats", many := true, help := "Layout statistics files".toList }

/-- The words of an option with many values, with their letters. -/
def manyToks (flag : Text) (act : ArgAction) (ts : List Text) : List (Text × ArgTok) :=
  (flag, .opt (some (act, flag, none))) :: ts.map (·, .arg)

theorem takeWhile_args (ts : List Text) (r : List (Text × ArgTok)) (hr : ∀ x, r.head? = some x → x.2.shape = .opt) :
    ((ts.map (·, ArgTok.arg) ++ r).map (·.2.shape)).takeWhile (fun x => decide (x = ArgShape.arg)) = ts.map fun _ => ArgShape.arg := by
  induction ts with
  | nil =>
    cases r with
    | nil => rfl
    | cons x r =>
      have := hr x rfl
      simp [this]
  | cons t ts ih =>
    simp only [List.map_cons, List.cons_append, ArgTok.shape, List.takeWhile_cons, decide_true, if_true]
    exact congrArg _ ih

theorem parseLoop_many {w : ArgWorld} {acts : List ArgAction} {helps : List Text}
    {sub : Text → List Text → Except ArgStop (Dict String ArgVal × List Text)} {act : ArgAction} {flag : Text} {ts : List Text}
    (hk : act.kind = .store) (hm : act.many = true) (hch : act.choices = none) (hne : ts ≠ []) (hp : ∀ t ∈ ts, PlainWord t) (fuel : Nat)
    (st : ArgState) {r : List (Text × ArgTok)} (hr : ∀ x, r.head? = some x → x.2.shape = .opt) :
    parseLoop w acts helps sub (fuel + 1) st (manyToks flag act ts ++ r) =
      parseLoop w acts helps sub fuel { st with ns := st.ns.set act.dest (.texts ts), seen := act.dest :: st.seen } r := by
  have h0 : (manyToks flag act ts ++ r).all (fun x => x.2.shape ≠ .opt) = false := by simp [manyToks, ArgTok.shape]
  have h1 : optionCount act ((ts.map (·, ArgTok.arg) ++ r).map (·.2.shape)) = .ok ts.length := by
    have h2 : ((ts.map (·, ArgTok.arg) ++ r).map (·.2.shape)).head? = some .arg := by
      obtain ⟨t, ts, rfl⟩ := List.exists_cons_of_ne_nil hne
      rfl
    unfold optionCount
    rw [if_neg (by rw [hk]; simp), if_neg (by rw [h2]; simp), if_pos hm, takeWhile_args ts r hr, List.length_map]
  have h2 : (ts.map (·, ArgTok.arg) ++ r).take ts.length = ts.map (·, ArgTok.arg) := by
    rw [List.take_append_of_le_length (by simp)]
    exact List.take_of_length_le (by simp)
  have h3 : (ts.map (·, ArgTok.arg) ++ r).drop ts.length = r := by
    rw [List.drop_append_of_le_length (by simp), List.drop_of_length_le (by simp)]
    rfl
  have h4 : (ts.map (·, ArgTok.arg)).map (·.1) = ts := by rw [List.map_map]; exact List.map_id _
  have he : ts.erase ['-', '-'] = ts := List.erase_of_not_mem fun h => plain_ne_dashes (hp _ h) rfl
  have h5 : takeAction w helps sub st act ts =
      .ok { st with ns := st.ns.set act.dest (.texts ts), seen := act.dest :: st.seen } := by
    simp [takeAction, hk, hm, hch, he]
  have h6 : consumeOptional w acts helps sub st flag (some (act, flag, none)) (ts.map (·, ArgTok.arg) ++ r) =
      .ok ({ st with ns := st.ns.set act.dest (.texts ts), seen := act.dest :: st.seen }, r) := by
    simp only [consumeOptional, optionActions, h1]
    simp only [bind, Except.bind, h2, h3, h4, List.append_nil, List.foldlM_cons, List.foldlM_nil, h5]
    rfl
  rw [show manyToks flag act ts ++ r = (flag, .opt (some (act, flag, none))) :: (ts.map (·, ArgTok.arg) ++ r) from rfl] at h0 ⊢
  rw [parseLoop, if_neg (by rw [h0]; decide), h6]
  rfl

/-- The letters of an option of `lulua-report`. -/
def reportToks : ReportOpt → List (Text × ArgTok)
  | .corpus b ts => manyToks (pick b "-c" "--corpus") corpusAction ts
  | .layoutstats b ts => manyToks (pick b "-l" "--layoutstats") layoutstatsAction ts

theorem report_tokens {w : ArgWorld} {os : List ReportOpt} (h : ∀ o ∈ os, o.Good) {bs : List Text} {tb : List (Text × ArgTok)}
    (hb : tokens w.uni reportProgram.parser.actions bs = .ok tb) :
    tokens w.uni reportProgram.parser.actions (os.flatMap (·.words) ++ bs) = .ok (os.flatMap reportToks ++ tb) := by
  induction os with
  | nil => exact hb
  | cons o os ih =>
    have ho := h o List.mem_cons_self
    have ih' := ih fun o ho => h o (List.mem_cons_of_mem _ ho)
    rw [List.flatMap_cons, List.flatMap_cons, List.append_assoc, List.append_assoc]
    cases o with
    | corpus b ts =>
      have h1 := tokens_append (fun h => plain_ne_dashes (ho.2 _ h) rfl)
        (tokens_plain (u := w.uni) (acts := reportProgram.parser.actions) ho.2) ih'
      have h2 : classify w.uni reportProgram.parser.actions (pick b "-c" "--corpus") =
          .ok (.opt (some (corpusAction, pick b "-c" "--corpus", none))) := by cases b <;> rfl
      exact tokens_cons (by cases b <;> decide) h2 h1
    | layoutstats b ts =>
      have h1 := tokens_append (fun h => plain_ne_dashes (ho.2 _ h) rfl)
        (tokens_plain (u := w.uni) (acts := reportProgram.parser.actions) ho.2) ih'
      have h2 : classify w.uni reportProgram.parser.actions (pick b "-l" "--layoutstats") =
          .ok (.opt (some (layoutstatsAction, pick b "-l" "--layoutstats", none))) := by cases b <;> rfl
      exact tokens_cons (by cases b <;> decide) h2 h1

theorem report_toks_head (os : List ReportOpt) {r : List (Text × ArgTok)} (hr : ∀ x, r.head? = some x → x.2.shape = .opt) :
    ∀ x, (os.flatMap reportToks ++ r).head? = some x → x.2.shape = .opt := by
  cases os with
  | nil => exact hr
  | cons o os =>
    intro x hx
    cases o <;> (cases hx; rfl)

theorem report_loop {w : ArgWorld} {helps : List Text} {sub : Text → List Text → Except ArgStop (Dict String ArgVal × List Text)}
    {os : List ReportOpt} (h : ∀ o ∈ os, o.Good) (fuel : Nat) (st : ArgState) {a b : ArgVal}
    (hst : st.ns = [("corpus", a), ("layoutstats", b)]) {r : List (Text × ArgTok)} (hr : ∀ x, r.head? = some x → x.2.shape = .opt) :
    ∃ seen, parseLoop w reportProgram.parser.actions helps sub (fuel + os.length) st (os.flatMap reportToks ++ r) =
      parseLoop w reportProgram.parser.actions helps sub fuel
        ⟨[("corpus", orElse (lastOf ReportOpt.corpus? os) .texts a), ("layoutstats", orElse (lastOf ReportOpt.layoutstats? os) .texts b)],
          st.extras, seen, st.todo⟩ r := by
  induction os generalizing st a b with
  | nil =>
    refine ⟨st.seen, ?_⟩
    cases st
    subst hst
    rfl
  | cons o os ih =>
    have ho := h o List.mem_cons_self
    have hh := report_toks_head os hr
    have hx : ∀ (f : ReportOpt → Option (List Text)) (o : ReportOpt) (d : ArgVal), orElse (lastOf f os) .texts (orElse (f o) .texts d) =
        orElse (lastOf f (o :: os)) .texts d := by
      intro f o d
      unfold lastOf
      cases hf : f o with
      | none => simp [hf, orElse]
      | some x =>
        rw [List.filterMap_cons, hf]
        simp only [List.getLast?_cons]
        cases (os.filterMap f).getLast? <;> rfl
    rw [List.flatMap_cons, List.append_assoc, List.length_cons, ← Nat.add_assoc]
    cases o with
    | corpus l ts =>
      obtain ⟨seen, h1⟩ := ih (fun o ho => h o (List.mem_cons_of_mem _ ho))
        { st with ns := st.ns.set "corpus" (.texts ts), seen := "corpus" :: st.seen } (a := .texts ts) (b := b) (by rw [hst]; rfl)
      refine ⟨seen, ?_⟩
      have h2 := hx ReportOpt.corpus? (.corpus l ts) a
      have h3 := hx ReportOpt.layoutstats? (.corpus l ts) b
      rw [← h2, ← h3]
      refine Eq.trans ?_ h1
      exact parseLoop_many (act := corpusAction) rfl rfl rfl ho.1 ho.2 _ st hh
    | layoutstats l ts =>
      obtain ⟨seen, h1⟩ := ih (fun o ho => h o (List.mem_cons_of_mem _ ho))
        { st with ns := st.ns.set "layoutstats" (.texts ts), seen := "layoutstats" :: st.seen } (a := a) (b := .texts ts)
        (by rw [hst]; rfl)
      refine ⟨seen, ?_⟩
      have h2 := hx ReportOpt.corpus? (.layoutstats l ts) a
      have h3 := hx ReportOpt.layoutstats? (.layoutstats l ts) b
      rw [← h2, ← h3]
      refine Eq.trans ?_ h1
      exact parseLoop_many (act := layoutstatsAction) rfl rfl rfl ho.1 ho.2 _ st hh

theorem report_toks_length (os : List ReportOpt) : os.length ≤ (os.flatMap reportToks).length := by
  induction os with
  | nil => simp
  | cons o os ih =>
    have : 1 ≤ (reportToks o).length := by cases o <;> simp [reportToks, manyToks]
    simp only [List.flatMap_cons, List.length_append, List.length_cons]
    omega

theorem report_start {w : ArgWorld} {os : List ReportOpt} (h : ∀ o ∈ os, o.Good) :
    reportProgram.start w (os.flatMap (·.words)) = .ok
      [("corpus", orElse (lastOf ReportOpt.corpus? os) .texts .none),
        ("layoutstats", orElse (lastOf ReportOpt.layoutstats? os) .texts .none)] := by
  refine start_ok ?_ (fun h => by cases h)
  have h1 := report_tokens (w := w) h (bs := []) rfl
  rw [List.append_nil, List.append_nil] at h1
  have hl := report_toks_length os
  unfold ArgParser.parseKnown
  rw [h1]
  obtain ⟨seen, h2⟩ := report_loop (w := w) (helps := reportProgram.parser.actions.map (·.help) ++ reportProgram.parser.helps)
    (sub := reportProgram.sub w) h ((os.flatMap reportToks).length - os.length + 1)
    ⟨[("corpus", .none), ("layoutstats", .none)], [], [], []⟩ rfl (r := []) (fun x hx => by cases hx)
  rw [List.append_nil, show (os.flatMap reportToks).length - os.length + 1 + os.length = (os.flatMap reportToks).length + 1 by omega] at h2
  simp only [bind, Except.bind]
  have h3 : ∀ f ns seen, parseLoop w reportProgram.parser.actions (reportProgram.parser.actions.map (·.help) ++ reportProgram.parser.helps)
      (reportProgram.sub w) (f + 1) ⟨ns, [], seen, []⟩ [] = .ok ⟨ns, [], seen, []⟩ := fun _ _ _ => rfl
  rw [h3] at h2
  erw [h2]
  rfl

/-- Without values after `-c`. -/
theorem report_no_corpora {w : ArgWorld} (b c : Bool) {ts : List Text} (h : ∀ t ∈ ts, PlainWord t) :
    reportProgram.start w (pick b "-c" "--corpus" :: pick c "-l" "--layoutstats" :: ts) = .error .usage := by
  refine start_error ?_
  have h2 : classify w.uni reportProgram.parser.actions (pick b "-c" "--corpus") =
      .ok (.opt (some (corpusAction, pick b "-c" "--corpus", none))) := by cases b <;> rfl
  have h3 : classify w.uni reportProgram.parser.actions (pick c "-l" "--layoutstats") =
      .ok (.opt (some (layoutstatsAction, pick c "-l" "--layoutstats", none))) := by cases c <;> rfl
  have h4 := tokens_cons (by cases b <;> decide) h2 (tokens_cons (by cases c <;> decide) h3 (tokens_plain h))
  unfold ArgParser.parseKnown
  rw [h4]
  rfl

end Lulua
