import Verif.Spec.Argparse
import Verif.Proofs.OptArgs
import Verif.Py.DictLemmas
import Verif.Proofs.Lists

/-!
# Proofs about command lines
-/

namespace Lulua

/-! ### Words -/

theorem classify_plain {u : UniNum} {acts : List ArgAction} {t : Text} (h : t.head? ≠ some '-') : classify u acts t = .ok .arg := by
  simp [classify, h]

theorem classify_flag {u : UniNum} {acts : List ArgAction} {t : Text} {a : ArgAction} (h : t.head? = some '-')
    (hf : findFlag acts t = some a) : classify u acts t = .ok (.opt (some (a, t, none))) := by
  simp [classify, h, hf]

theorem classify_glued {u : UniNum} {acts : List ArgAction} {f v : Text} {a : ArgAction} (h : f.head? = some '-')
    (hf : findFlag acts f = some a) (he : '=' ∉ f) (hall : ∀ x ∈ optionFlags acts, '=' ∉ x.1) :
    classify u acts (f ++ '=' :: v) = .ok (.opt (some (a, f, some (true, v)))) := by
  have h1 : findFlag acts (f ++ '=' :: v) = none := by
    simp only [findFlag, Option.map_eq_none_iff, List.find?_eq_none, decide_eq_true_eq]
    intro x hx hc
    exact hall x hx (by rw [hc]; simp)
  have h2 : (f ++ '=' :: v).head? = some '-' := by
    cases f with
    | nil => simp at h
    | cons c f => simpa using h
  have h3 : (f ++ '=' :: v).length ≠ 1 := by
    cases f with
    | nil => simp at h
    | cons c f => simp
  rw [classify, if_neg (by rw [h2]; simp), h1]
  simp only [if_neg h3, splitFirst_some he, Option.bind_some, hf, Option.map_some]

theorem tokens_cons {u : UniNum} {acts : List ArgAction} {t : Text} {ts : List Text} {k : ArgTok} {r : List (Text × ArgTok)}
    (h : t ≠ ['-', '-']) (hk : classify u acts t = .ok k) (hr : tokens u acts ts = .ok r) :
    tokens u acts (t :: ts) = .ok ((t, k) :: r) := by
  rw [tokens, if_neg h, hk, hr]
  rfl

theorem plain_ne_dashes {t : Text} (h : t.head? ≠ some '-') : t ≠ ['-', '-'] := by
  rintro rfl
  exact h rfl

theorem tokens_plain {u : UniNum} {acts : List ArgAction} {ts : List Text} (h : ∀ t ∈ ts, t.head? ≠ some '-') :
    tokens u acts ts = .ok (ts.map (·, .arg)) := by
  induction ts with
  | nil => rfl
  | cons t ts ih =>
    have h1 := h t List.mem_cons_self
    exact tokens_cons (plain_ne_dashes h1) (classify_plain h1) (ih fun t ht => h t (List.mem_cons_of_mem _ ht))

theorem tokens_append {u : UniNum} {acts : List ArgAction} {as bs : List Text} {ta tb : List (Text × ArgTok)}
    (hn : ['-', '-'] ∉ as) (ha : tokens u acts as = .ok ta) (hb : tokens u acts bs = .ok tb) :
    tokens u acts (as ++ bs) = .ok (ta ++ tb) := by
  induction as generalizing ta with
  | nil =>
    simp only [tokens, Except.ok.injEq] at ha
    subst ha
    exact hb
  | cons t as ih =>
    simp only [List.mem_cons, not_or] at hn
    rw [tokens, if_neg (Ne.symm hn.1)] at ha
    cases hk : classify u acts t with
    | error e => rw [hk] at ha; cases ha
    | ok k =>
      rw [hk] at ha
      cases hr : tokens u acts as with
      | error e => rw [hr] at ha; cases ha
      | ok r =>
        rw [hr] at ha
        have h1 : (t, k) :: r = ta := Except.ok.inj ha
        subst h1
        exact tokens_cons (Ne.symm hn.1) hk (ih hn.2 hr)

/-! ### Options -/

/-- An option as it is given: the flag, the value and is it written in the same word, the argument of the parser and the value it
makes of it. -/
structure GivenOpt where
  flag : Text
  value : Option Text := none
  glued : Bool := false
  act : ArgAction
  val : ArgVal

/-- The parser knows the option and takes its value. -/
structure GivenOpt.Ok (w : ArgWorld) (acts : List ArgAction) (o : GivenOpt) : Prop where
  dash : o.flag.head? = some '-'
  two : o.flag ≠ ['-', '-']
  flag : findFlag acts o.flag = some o.act
  without : o.value = none → o.act.kind = .storeTrue ∧ o.val = .flag true
  with_ : ∀ v, o.value = some v → (o.act.kind = .store ∨ o.act.kind = .append) ∧ o.act.many = false ∧ v.head? ≠ some '-' ∧
    argValue w o.act v = .ok o.val
  joined : o.glued = true → '=' ∉ o.flag ∧ ∀ x ∈ optionFlags acts, '=' ∉ x.1

/-- The words of an option. -/
def GivenOpt.words (o : GivenOpt) : List Text :=
  match o.value with
  | none => [o.flag]
  | some v => if o.glued then [o.flag ++ '=' :: v] else [o.flag, v]

/-- The words with their letters. -/
def GivenOpt.toks (o : GivenOpt) : List (Text × ArgTok) :=
  match o.value with
  | none => [(o.flag, .opt (some (o.act, o.flag, none)))]
  | some v =>
    if o.glued then [(o.flag ++ '=' :: v, .opt (some (o.act, o.flag, some (true, v))))]
    else [(o.flag, .opt (some (o.act, o.flag, none))), (v, .arg)]

/-- What the option does with the attributes. -/
def GivenOpt.apply (ns : Dict String ArgVal) (o : GivenOpt) : Dict String ArgVal :=
  match o.act.kind, ns.get? o.act.dest, o.val with
  | .append, some (.mutations old), .mutations new => ns.set o.act.dest (.mutations (old ++ new))
  | _, _, v => ns.set o.act.dest v

theorem GivenOpt.Ok.no_dashes {w : ArgWorld} {acts : List ArgAction} {o : GivenOpt} (h : o.Ok w acts) : ['-', '-'] ∉ o.words := by
  unfold GivenOpt.words
  cases hv : o.value with
  | none => simpa using Ne.symm h.two
  | some v =>
    have h1 := plain_ne_dashes (h.with_ v hv).2.2.1
    cases hg : o.glued with
    | false => simpa using ⟨Ne.symm h.two, Ne.symm h1⟩
    | true =>
      simp only [if_true, List.mem_singleton]
      intro hc
      have : '=' ∈ ['-', '-'] := by rw [hc]; simp
      revert this
      decide

theorem GivenOpt.Ok.tokens {w : ArgWorld} {acts : List ArgAction} {o : GivenOpt} (h : o.Ok w acts) :
    tokens w.uni acts o.words = .ok o.toks := by
  have hn := h.no_dashes
  unfold GivenOpt.words at hn ⊢
  unfold GivenOpt.toks
  cases hv : o.value with
  | none => exact tokens_cons h.two (classify_flag h.dash h.flag) rfl
  | some v =>
    rw [hv] at hn
    have h1 := (h.with_ v hv).2.2.1
    cases hg : o.glued with
    | false =>
      exact tokens_cons h.two (classify_flag h.dash h.flag) (tokens_cons (plain_ne_dashes h1) (classify_plain h1) rfl)
    | true =>
      simp only [hg, if_true, List.mem_singleton] at hn
      have h2 := h.joined hg
      exact tokens_cons (Ne.symm hn) (classify_glued h.dash h.flag h2.1 h2.2) rfl

theorem tokens_opts {w : ArgWorld} {acts : List ArgAction} {os : List GivenOpt} (h : ∀ o ∈ os, o.Ok w acts) {bs : List Text}
    {tb : List (Text × ArgTok)} (hb : tokens w.uni acts bs = .ok tb) :
    tokens w.uni acts (os.flatMap (·.words) ++ bs) = .ok (os.flatMap (·.toks) ++ tb) := by
  induction os with
  | nil => exact hb
  | cons o os ih =>
    rw [List.flatMap_cons, List.flatMap_cons, List.append_assoc, List.append_assoc]
    have ho := h o List.mem_cons_self
    exact tokens_append ho.no_dashes ho.tokens (ih fun o ho => h o (List.mem_cons_of_mem _ ho))

/-! ### The loop -/

section
variable {w : ArgWorld} {acts : List ArgAction} {helps : List Text}
  {sub : Text → List Text → Except ArgStop (Dict String ArgVal × List Text)}

theorem takeAction_given {o : GivenOpt} (h : o.Ok w acts) (st : ArgState) :
    takeAction w helps sub st o.act o.value.toList =
      .ok { st with ns := o.apply st.ns, seen := o.act.dest :: st.seen } := by
  cases hv : o.value with
  | none =>
    obtain ⟨hk, hval⟩ := h.without hv
    simp [takeAction, GivenOpt.apply, hk, hval]
  | some v =>
    obtain ⟨hk, hm, hp, hval⟩ := h.with_ v hv
    have he : [v].erase ['-', '-'] = [v] := List.erase_of_not_mem (by simpa using Ne.symm (plain_ne_dashes hp))
    rcases hk with hk | hk
    · simp only [takeAction, GivenOpt.apply, hk, Option.toList_some, he, hm, hval]
      rfl
    · simp only [takeAction, GivenOpt.apply, hk, Option.toList_some, he, hm, hval]
      cases h1 : st.ns.get? o.act.dest with
      | none => cases o.val <;> rfl
      | some x =>
        cases o.val <;> cases x <;> rfl

theorem consumeOptional_given {o : GivenOpt} (h : o.Ok w acts) (st : ArgState) (r : List (Text × ArgTok)) :
    ∃ t k ts, o.toks ++ r = (t, .opt (some k)) :: ts ∧ consumeOptional w acts helps sub st t (some k) ts =
      .ok ({ st with ns := o.apply st.ns, seen := o.act.dest :: st.seen }, r) := by
  have h1 := takeAction_given (helps := helps) (sub := sub) h st
  unfold GivenOpt.toks
  cases hv : o.value with
  | none =>
    refine ⟨_, _, r, rfl, ?_⟩
    have h0 : optionCount o.act (r.map (·.2.shape)) = .ok 0 := by simp [optionCount, (h.without hv).1]
    rw [hv] at h1
    simp only [consumeOptional, optionActions, List.nil_append, h0]
    simp only [bind, Except.bind, List.take_zero, List.drop_zero, List.map_nil, List.append_nil, List.foldlM_cons, List.foldlM_nil]
    rw [Option.toList_none] at h1
    rw [h1]
    rfl
  | some v =>
    obtain ⟨hk, hm, _, _⟩ := h.with_ v hv
    rw [hv, Option.toList_some] at h1
    cases hg : o.glued with
    | false =>
      refine ⟨_, _, (v, .arg) :: r, rfl, ?_⟩
      have h0 : optionCount o.act (((v, ArgTok.arg) :: r).map (·.2.shape)) = .ok 1 := by
        rcases hk with hk | hk <;> simp [optionCount, hk, hm, ArgTok.shape]
      simp only [consumeOptional, optionActions]
      rw [h0]
      simp only [bind, Except.bind, List.append_nil, List.foldlM_cons, List.foldlM_nil, List.take_succ_cons,
        List.take_zero, List.map_cons, List.map_nil, h1]
      rfl
    | true =>
      refine ⟨_, _, r, rfl, ?_⟩
      have h0 : optionCount o.act [.arg] = .ok 1 := by
        rcases hk with hk | hk <;> simp [optionCount, hk, hm]
      have h2 : optionActions.joined acts r o.act o.flag true false v = .ok ([(o.act, [v])], r, []) := by
        cases v with
        | nil => simp [optionActions.joined, h0, bind, Except.bind]
        | cons c e => simp [optionActions.joined, h0, bind, Except.bind]
      simp only [consumeOptional, optionActions, List.nil_append, h2]
      simp only [bind, Except.bind, List.append_nil, List.foldlM_cons, List.foldlM_nil, h1]
      rfl

theorem parseLoop_opt {o : GivenOpt} (h : o.Ok w acts) (fuel : Nat) (st : ArgState) (r : List (Text × ArgTok)) :
    parseLoop w acts helps sub (fuel + 1) st (o.toks ++ r) =
      parseLoop w acts helps sub fuel { st with ns := o.apply st.ns, seen := o.act.dest :: st.seen } r := by
  obtain ⟨t, k, ts, ht, h5⟩ := consumeOptional_given (helps := helps) (sub := sub) h st r
  have h0 : ((t, ArgTok.opt (some k)) :: ts).all (fun x => x.2.shape ≠ .opt) = false := by simp [ArgTok.shape]
  rw [ht, parseLoop, if_neg (by rw [h0]; decide), h5]
  rfl

/-- Options are taken one after the other. -/
theorem parseLoop_opts {os : List GivenOpt} (h : ∀ o ∈ os, o.Ok w acts) (fuel : Nat) (st : ArgState) (r : List (Text × ArgTok)) :
    parseLoop w acts helps sub (fuel + os.length) st (os.flatMap (·.toks) ++ r) =
      parseLoop w acts helps sub fuel
        { st with ns := os.foldl GivenOpt.apply st.ns, seen := (os.map fun o => o.act.dest).reverse ++ st.seen } r := by
  induction os generalizing st with
  | nil => rfl
  | cons o os ih =>
    rw [List.flatMap_cons, List.append_assoc, List.length_cons, ← Nat.add_assoc, parseLoop_opt (h o List.mem_cons_self),
      ih fun o ho => h o (List.mem_cons_of_mem _ ho)]
    simp

/-! ### The number of rounds does not matter -/

theorem joined_length {ts : List (Text × ArgTok)} (e : Text) (a : ArgAction) (flag : Text) (sep inner : Bool)
    (x : List (ArgAction × List Text) × List (Text × ArgTok) × List Text)
    (h : optionActions.joined acts ts a flag sep inner e = .ok x) : x.2.1.length ≤ ts.length := by
  induction e generalizing a flag sep inner x with
  | nil =>
    unfold optionActions.joined at h
    cases hc : optionCount a [.arg] with
    | error y => rw [hc] at h; cases h
    | ok k =>
      rw [hc] at h
      simp only [bind, Except.bind] at h
      split at h
      · cases h; exact Nat.le_refl _
      · cases h
  | cons c e ih =>
    unfold optionActions.joined at h
    split at h
    · exact ih _ _ _ _ _ h
    cases hc : optionCount a [.arg] with
    | error y => rw [hc] at h; cases h
    | ok k =>
      rw [hc] at h
      simp only [bind, Except.bind] at h
      split at h
      · cases h; exact Nat.le_refl _
      · split at h
        · cases h
        · split at h
          · cases h; exact Nat.le_refl _
          · rename_i b hb
            split at h
            · cases hc : optionCount b (ts.map (·.2.shape)) with
              | error y => rw [hc] at h; cases h
              | ok k =>
                rw [hc] at h
                cases h
                simp
            · cases hj : optionActions.joined acts ts b ['-', c] false true e with
              | error y => rw [hj] at h; cases h
              | ok y =>
                rw [hj] at h
                cases h
                exact ih _ _ _ _ y hj

theorem consumeOptional_length {st : ArgState} {t : Text} {o : Option (ArgAction × Text × Option (Bool × Text))}
    {ts : List (Text × ArgTok)} {x : ArgState × List (Text × ArgTok)} (h : consumeOptional w acts helps sub st t o ts = .ok x) :
    x.2.length ≤ ts.length := by
  unfold consumeOptional at h
  split at h
  · cases h; exact Nat.le_refl _
  · rename_i a flag e
    cases hl : optionActions acts a flag ts e with
    | error y => rw [hl] at h; cases h
    | ok y =>
      rw [hl] at h
      simp only [bind, Except.bind] at h
      split at h
      · cases h
      · cases h
        cases e with
        | none =>
          simp only [optionActions] at hl
          cases hc : optionCount a (ts.map (·.2.shape)) with
          | error z => rw [hc] at hl; cases hl
          | ok k => rw [hc] at hl; cases hl; simp
        | some e => exact joined_length _ _ _ _ _ _ hl

theorem parseLoop_fuel (f : Nat) : ∀ (g : Nat) (st : ArgState) (ts : List (Text × ArgTok)), ts.length < f → ts.length < g →
    parseLoop w acts helps sub f st ts = parseLoop w acts helps sub g st ts := by
  induction f with
  | zero => intro g st ts h; omega
  | succ f ih =>
    intro g st ts hf hg
    obtain ⟨g, rfl⟩ : ∃ g', g = g' + 1 := ⟨g - 1, by omega⟩
    rw [parseLoop.eq_def, parseLoop.eq_def]
    simp only
    split
    · rfl
    · rename_i hall
      split
      · rename_i t o r
        cases hc : consumeOptional w acts helps sub st t o r with
        | error e => rfl
        | ok x =>
          have := consumeOptional_length hc
          simp only [List.length_cons] at hf hg
          exact ih g x.1 x.2 (by omega) (by omega)
      · rename_i hne
        cases hc : consumePositionals w helps sub st ts with
        | error e => rfl
        | ok x =>
          simp only [bind, Except.bind]
          split
          · exact ih g _ _ (by omega) (by omega)
          · cases ts with
            | nil => exact absurd rfl hall
            | cons y ts =>
              have hy : y.2.shape ≠ .opt := by
                intro h
                obtain ⟨t, k⟩ := y
                cases k with
                | opt o => exact hne t o ts rfl
                | arg => cases h
                | dashes => cases h
              have : (List.dropWhile (fun x : Text × ArgTok => decide (x.2.shape ≠ .opt)) (y :: ts)).length ≤ ts.length := by
                rw [List.dropWhile_cons_of_pos (by simpa using hy)]
                exact (List.dropWhile_suffix _).length_le
              simp only [List.length_cons] at hf hg
              exact ih g _ _ (by omega) (by omega)

/-! ### Positional arguments -/

theorem matchStar_zero {p : ArgShape → Bool} {k : List ArgShape → Option (List Nat)} {s : ArgShape} {ss : List ArgShape}
    (h : p s = false) : matchStar p k (s :: ss) = (k (s :: ss)).map (0 :: ·) := by
  simp [matchStar, h]

theorem matchStar_all {p : ArgShape → Bool} {k : List ArgShape → Option (List Nat)} {ss : List ArgShape} {l : List Nat}
    (h : ∀ s ∈ ss, p s = true) (hk : k [] = some l) : matchStar p k ss = some (ss.length :: l) := by
  induction ss with
  | nil => simp [matchStar, hk]
  | cons s ss ih =>
    simp [matchStar, h s List.mem_cons_self, ih fun s hs => h s (List.mem_cons_of_mem _ hs)]

theorem matchStar_last {p : ArgShape → Bool} {k : List ArgShape → Option (List Nat)} {ss : List ArgShape} {s : ArgShape} {l : List Nat}
    (h : ∀ s ∈ ss, p s = true) (hk : k [] = none) (hs : k [s] = some l) : matchStar p k (ss ++ [s]) = some (ss.length :: l) := by
  induction ss with
  | nil =>
    simp only [List.nil_append, matchStar, hk, hs]
    cases p s <;> simp
  | cons t ss ih =>
    simp [matchStar, h t List.mem_cons_self, ih fun s hs => h s (List.mem_cons_of_mem _ hs)]

theorem parseLoop_positionals {st st' : ArgState} {ts : List (Text × ArgTok)} {t : Text} {r : List (Text × ArgTok)}
    (ht : ts = (t, .arg) :: r) (hc : consumePositionals w helps sub st ts = .ok (st', [])) (hd : st'.todo = []) (fuel : Nat)
    (hf : ts.length < fuel) : parseLoop w acts helps sub fuel st ts = .ok st' := by
  obtain ⟨fuel, rfl⟩ : ∃ f, fuel = f + 1 := ⟨fuel - 1, by omega⟩
  have hend : ∀ f, parseLoop w acts helps sub (f + 1) st' [] = .ok st' := by
    intro f
    rw [parseLoop.eq_def]
    have h1 : consumePositionals w helps sub st' [] = .ok (st', []) := by
      cases st' with
      | mk ns ex seen todo =>
        simp only at hd
        subst hd
        rfl
    simp only [List.all_nil, if_true, h1]
    simp [bind, Except.bind]
  rw [parseLoop.eq_def]
  simp only
  split
  · rw [hc]
    simp [bind, Except.bind]
  · subst ht
    simp only [hc, bind, Except.bind, List.length_nil, List.length_cons, Nat.zero_lt_succ, if_true]
    simp only [List.length_cons] at hf
    obtain ⟨f, rfl⟩ : ∃ f, fuel = f + 1 := ⟨fuel - 1, by omega⟩
    exact hend f

theorem parseLoop_positionals_error {st : ArgState} {ts : List (Text × ArgTok)} {t : Text} {r : List (Text × ArgTok)} {e : ArgStop}
    (ht : ts = (t, .arg) :: r) (hc : consumePositionals w helps sub st ts = .error e) (fuel : Nat) :
    parseLoop w acts helps sub (fuel + 1) st ts = .error e := by
  rw [parseLoop.eq_def]
  simp only
  split
  · rw [hc]
    rfl
  · subst ht
    simp only [hc, bind, Except.bind]

/-- A command takes everything behind it. -/
theorem consume_command {st : ArgState} {a : ArgAction} (ht : st.todo = [a]) (hk : a.kind = .command) (c : Text)
    (r : List (Text × ArgTok)) : consumePositionals w helps sub st ((c, .arg) :: r) = (do
      let s ← takeAction w helps sub st a (c :: r.map (·.1))
      .ok ({ s with todo := [] }, [])) := by
  have hm : matchPartial [a] (((c, ArgTok.arg) :: r).map (·.2.shape)) 1 = [r.length + 1] := by
    have h0 : matchStar (fun _ => true) (matchItems []) (r.map (·.2.shape)) = some [r.length] := by
      rw [matchStar_all (l := []) (fun _ _ => rfl) rfl, List.length_map]
    have : matchItems ([a].flatMap argItems) (((c, ArgTok.arg) :: r).map (·.2.shape)) = some [0, 1, r.length] := by
      rw [show ((c, ArgTok.arg) :: r).map (·.2.shape) = .arg :: r.map (·.2.shape) from rfl]
      simp only [List.flatMap_cons, List.flatMap_nil, List.append_nil, argItems, hk, if_true]
      rw [matchItems, matchStar_zero (by decide), matchItems, if_pos (by decide), matchItems, h0]
      rfl
    simp only [matchPartial]
    rw [show List.take (0 + 1) [a] = [a] from rfl, this]
    simp [sumThrees, Nat.add_comm]
  unfold consumePositionals
  rw [ht, List.length_singleton, hm]
  simp only [List.zip_cons_cons, List.zip_nil_left, List.foldlM_cons, List.foldlM_nil, List.take_succ_cons, List.take_length,
    List.map_cons, List.drop_succ_cons, List.drop_length, List.length_singleton, List.drop_nil]
  cases takeAction w helps sub st a (c :: r.map (·.1)) <;> rfl

/-- A command followed by another argument leaves the last word to it. -/
theorem consume_command_last {st : ArgState} {a b : ArgAction} (ht : st.todo = [a, b]) (hk : a.kind = .command)
    (hb : b.kind = .store) (hm : b.many = false) (c o : Text) (r : List (Text × ArgTok)) :
    consumePositionals w helps sub st ((c, .arg) :: (r ++ [(o, .arg)])) = (do
      let s ← takeAction w helps sub st a (c :: r.map (·.1))
      let s ← takeAction w helps sub s b [o]
      .ok ({ s with todo := [] }, [])) := by
  have hm : matchPartial [a, b] (((c, ArgTok.arg) :: (r ++ [(o, .arg)])).map (·.2.shape)) 2 = [r.length + 1, 1] := by
    have h0 : matchStar (fun _ => true) (matchItems [.star (· = .dashes), .one (· = .arg), .star (· = .dashes)])
        (r.map (·.2.shape) ++ [.arg]) = some [r.length, 0, 1, 0] := by
      rw [matchStar_last (l := [0, 1, 0]) (fun _ _ => rfl) (by decide) (by decide), List.length_map]
    have : matchItems ([a, b].flatMap argItems) (((c, ArgTok.arg) :: (r ++ [(o, .arg)])).map (·.2.shape)) =
        some [0, 1, r.length, 0, 1, 0] := by
      rw [show ((c, ArgTok.arg) :: (r ++ [(o, .arg)])).map (·.2.shape) = .arg :: (r.map (·.2.shape) ++ [.arg]) by simp [ArgTok.shape]]
      simp only [List.flatMap_cons, List.flatMap_nil, List.append_nil, argItems, hk, hb, hm, if_true, reduceCtorEq, if_false,
        Bool.false_eq_true, List.cons_append, List.nil_append]
      rw [matchItems, matchStar_zero (by decide), matchItems, if_pos (by decide), matchItems, h0]
      rfl
    simp only [matchPartial]
    rw [show List.take (1 + 1) [a, b] = [a, b] from rfl, this]
    simp [sumThrees, Nat.add_comm]
  unfold consumePositionals
  rw [ht, show [a, b].length = 2 from rfl, hm]
  have h1 : List.take (r.length + 1) ((c, ArgTok.arg) :: (r ++ [(o, .arg)])) = (c, .arg) :: r := by simp
  have h2 : List.drop (r.length + 1) ((c, ArgTok.arg) :: (r ++ [(o, .arg)])) = [(o, .arg)] := by simp
  simp only [List.zip_cons_cons, List.zip_nil_left, List.foldlM_cons, List.foldlM_nil, h1, h2, List.map_cons]
  cases takeAction w helps sub st a (c :: r.map (·.1)) with
  | error e => rfl
  | ok s =>
    simp only [bind, Except.bind, List.take_succ_cons, List.take_zero, List.map_cons, List.map_nil, List.drop_succ_cons, List.drop_zero]
    cases takeAction w helps sub s b [o] <;> rfl

/-- One word. -/
theorem consume_one {st : ArgState} {a : ArgAction} (ht : st.todo = [a]) (hk : a.kind = .store) (hma : a.many = false) (c : Text) :
    consumePositionals w helps sub st [(c, .arg)] = (do
      let s ← takeAction w helps sub st a [c]
      .ok ({ s with todo := [] }, [])) := by
  have hm : matchPartial [a] ([(c, ArgTok.arg)].map (·.2.shape)) 1 = [1] := by
    have : matchItems ([a].flatMap argItems) [ArgShape.arg] = some [0, 1, 0] := by
      simp only [List.flatMap_cons, List.flatMap_nil, List.append_nil, argItems, hk, hma, reduceCtorEq, if_false, Bool.false_eq_true]
      rfl
    simp only [matchPartial]
    rw [show List.take (0 + 1) [a] = [a] from rfl, show [(c, ArgTok.arg)].map (·.2.shape) = [.arg] from rfl, this]
    rfl
  unfold consumePositionals
  rw [ht, List.length_singleton, hm]
  simp only [List.zip_cons_cons, List.zip_nil_left, List.foldlM_cons, List.foldlM_nil, List.take_succ_cons, List.take_zero,
    List.map_cons, List.map_nil, List.drop_succ_cons, List.drop_zero, List.length_singleton]
  cases takeAction w helps sub st a [c] <;> rfl

/-- One word, and all others. -/
theorem consume_one_many {st : ArgState} {a b : ArgAction} (ht : st.todo = [a, b]) (ha : a.kind = .store) (hma : a.many = false)
    (hb : b.kind = .store) (hmb : b.many = true) (c : Text) (fs : List Text) (hfs : fs ≠ []) :
    consumePositionals w helps sub st ((c, .arg) :: fs.map (·, .arg)) = (do
      let s ← takeAction w helps sub st a [c]
      let s ← takeAction w helps sub s b fs
      .ok ({ s with todo := [] }, [])) := by
  obtain ⟨f, fs, rfl⟩ := List.exists_cons_of_ne_nil hfs
  have hfst : ∀ l : List Text, (l.map (·, ArgTok.arg)).map (·.1) = l := fun l => by rw [List.map_map]; exact List.map_id _
  have hm : matchPartial [a, b] (((c, ArgTok.arg) :: (f :: fs).map (·, .arg)).map (·.2.shape)) 2 = [1, fs.length + 1] := by
    have h0 : matchStar (fun s => decide (s ≠ .opt)) (matchItems []) ((fs.map (·, ArgTok.arg)).map (·.2.shape)) = some [fs.length] := by
      rw [matchStar_all (l := []) (fun s hs => ?_) rfl, List.length_map, List.length_map]
      simp only [List.map_map, List.mem_map] at hs
      obtain ⟨_, _, rfl⟩ := hs
      rfl
    have : matchItems ([a, b].flatMap argItems) (((c, ArgTok.arg) :: (f :: fs).map (·, .arg)).map (·.2.shape)) =
        some [0, 1, 0, 0, 1, fs.length] := by
      rw [show ((c, ArgTok.arg) :: (f :: fs).map (·, .arg)).map (·.2.shape) =
        .arg :: .arg :: (fs.map (·, ArgTok.arg)).map (·.2.shape) from rfl]
      simp only [List.flatMap_cons, List.flatMap_nil, List.append_nil, argItems, ha, hma, hb, hmb, if_true, reduceCtorEq, if_false,
        Bool.false_eq_true, List.cons_append, List.nil_append]
      rw [matchItems, matchStar_zero (by decide), matchItems, if_pos (by decide), matchItems, matchStar_zero (by decide), matchItems,
        matchStar_zero (by decide), matchItems, if_pos (by decide), matchItems, h0]
      rfl
    simp only [matchPartial]
    rw [show List.take (1 + 1) [a, b] = [a, b] from rfl, this]
    simp [sumThrees, Nat.add_comm]
  unfold consumePositionals
  rw [ht, show [a, b].length = 2 from rfl, hm]
  simp only [List.zip_cons_cons, List.zip_nil_left, List.foldlM_cons, List.foldlM_nil, List.take_succ_cons, List.take_zero, List.map_cons,
    List.map_nil, List.drop_succ_cons, List.drop_zero]
  cases takeAction w helps sub st a [c] with
  | error e => rfl
  | ok s =>
    have h1 : List.take (fs.length + 1) ((f, ArgTok.arg) :: fs.map (·, ArgTok.arg)) = (f :: fs).map (·, ArgTok.arg) :=
      List.take_of_length_le (by simp)
    have h2 : List.drop (fs.length + 1) ((f, ArgTok.arg) :: fs.map (·, ArgTok.arg)) = [] := List.drop_of_length_le (by simp)
    simp only [bind, Except.bind, h1, h2, hfst]
    cases takeAction w helps sub s b (f :: fs) <;> rfl

end

end Lulua
