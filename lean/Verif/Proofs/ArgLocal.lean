import Verif.Proofs.ArgPrograms

/-!
# Words before an option do not see it

What `argparse` makes of the words before an option does not depend on how the option is written, unless there are commands.
-/

namespace Lulua

/-! ### Positional arguments end at options -/

/-- The item does not match options. -/
def ArgItem.Stops : ArgItem → Prop
  | .one p => p .opt = false
  | .star p => p .opt = false

theorem matchStar_local {p : ArgShape → Bool} (hp : p .opt = false) {k : List ArgShape → Option (List Nat)} {sy : List ArgShape}
    (hk : ∀ sx, k (sx ++ .opt :: sy) = k sx) (sx : List ArgShape) : matchStar p k (sx ++ .opt :: sy) = matchStar p k sx := by
  induction sx with
  | nil =>
    rw [List.nil_append, matchStar_zero hp, matchStar]
    have := hk []
    rw [List.nil_append] at this
    rw [this]
  | cons s sx ih =>
    rw [List.cons_append, matchStar, matchStar, ih]
    have := hk (s :: sx)
    rw [List.cons_append] at this
    rw [this]

theorem matchItems_local {is : List ArgItem} (h : ∀ i ∈ is, i.Stops) {sy : List ArgShape} (sx : List ArgShape) :
    matchItems is (sx ++ .opt :: sy) = matchItems is sx := by
  induction is generalizing sx with
  | nil => simp [matchItems]
  | cons i is ih =>
    have h1 := h i List.mem_cons_self
    have h2 := ih fun i hi => h i (List.mem_cons_of_mem _ hi)
    cases i with
    | one p =>
      cases sx with
      | nil =>
        have : p .opt = false := h1
        simp [matchItems, this]
      | cons s sx => rw [List.cons_append, matchItems, matchItems, h2]
    | star p =>
      rw [matchItems, matchItems]
      exact matchStar_local h1 h2 sx

theorem matchStar_sum {p : ArgShape → Bool} {k : List ArgShape → Option (List Nat)}
    (hk : ∀ ss ns, k ss = some ns → ns.sum ≤ ss.length) (ss : List ArgShape) (ns : List Nat) (h : matchStar p k ss = some ns) :
    ns.sum ≤ ss.length := by
  have hz : ∀ ss ns, (k ss).map (0 :: ·) = some ns → ns.sum ≤ ss.length := by
    intro ss ns h
    obtain ⟨l, h1, rfl⟩ := Option.map_eq_some_iff.1 h
    simpa using hk _ _ h1
  induction ss generalizing ns with
  | nil =>
    rw [matchStar] at h
    exact hz _ _ h
  | cons s ss ih =>
    rw [matchStar] at h
    split at h
    · rename_i n l hm
      split at hm
      · have := ih _ hm
        cases h
        simp only [List.sum_cons, List.length_cons] at this ⊢
        omega
      · cases hm
    · exact hz _ _ h

theorem matchItems_sum {is : List ArgItem} (ss : List ArgShape) (ns : List Nat) (h : matchItems is ss = some ns) :
    ns.sum ≤ ss.length := by
  induction is generalizing ss ns with
  | nil =>
    simp only [matchItems, Option.some.injEq] at h
    simp [← h]
  | cons i is ih =>
    cases i with
    | one p =>
      cases ss with
      | nil => simp [matchItems] at h
      | cons s ss =>
        rw [matchItems] at h
        split at h
        · obtain ⟨l, h1, rfl⟩ := Option.map_eq_some_iff.1 h
          have := ih _ _ h1
          simp only [List.sum_cons, List.length_cons]
          omega
        · cases h
    | star p =>
      rw [matchItems] at h
      exact matchStar_sum (fun _ _ => ih _ _) _ _ h

theorem sumThrees_sum (ns : List Nat) : (sumThrees ns).sum ≤ ns.sum := by
  match ns with
  | [] => simp [sumThrees]
  | [_] => simp [sumThrees]
  | [_, _] => simp [sumThrees]
  | a :: b :: c :: r =>
    have := sumThrees_sum r
    simp only [sumThrees, List.sum_cons]
    omega

theorem argItems_stops {a : ArgAction} (h : a.kind ≠ .command) : ∀ i ∈ argItems a, i.Stops := by
  intro i hi
  simp only [argItems, List.mem_cons, List.not_mem_nil, or_false] at hi
  rcases hi with rfl | rfl | rfl
  · simp [ArgItem.Stops]
  · simp [ArgItem.Stops]
  · simp [ArgItem.Stops, h]

theorem matchPartial_local {acts : List ArgAction} (h : ∀ a ∈ acts, a.kind ≠ .command) {sy : List ArgShape} (sx : List ArgShape) (n : Nat) :
    matchPartial acts (sx ++ .opt :: sy) n = matchPartial acts sx n := by
  induction n with
  | zero => rfl
  | succ n ih =>
    rw [matchPartial, matchPartial, ih, matchItems_local]
    intro i hi
    obtain ⟨a, ha, hi⟩ := List.mem_flatMap.1 hi
    exact argItems_stops (h a (List.mem_of_mem_take ha)) i hi

theorem matchPartial_sum {acts : List ArgAction} (ss : List ArgShape) (n : Nat) : (matchPartial acts ss n).sum ≤ ss.length := by
  induction n with
  | zero => simp [matchPartial]
  | succ n ih =>
    rw [matchPartial]
    split
    · rename_i ns h
      exact Nat.le_trans (sumThrees_sum _) (matchItems_sum _ _ h)
    · exact ih

section
variable {w : ArgWorld} {acts : List ArgAction} {helps : List Text}
  {sub : Text → List Text → Except ArgStop (Dict String ArgVal × List Text)}

/-- The words begin with an option. -/
def OptFirst (R : List (Text × ArgTok)) : Prop := ∃ t o ts, R = (t, ArgTok.opt o) :: ts

/-- A positional argument takes its words. -/
def positionalStep (w : ArgWorld) (helps : List Text) (sub : Text → List Text → Except ArgStop (Dict String ArgVal × List Text))
    (x : ArgState × List (Text × ArgTok)) (y : ArgAction × Nat) : Except ArgStop (ArgState × List (Text × ArgTok)) := do
  let s ← takeAction w helps sub x.1 y.1 ((x.2.take y.2).map (·.1))
  .ok (s, x.2.drop y.2)

theorem consumePositionals_eq (st : ArgState) (ts : List (Text × ArgTok)) : consumePositionals w helps sub st ts = (do
    let x ← (st.todo.zip (matchPartial st.todo (ts.map (·.2.shape)) st.todo.length)).foldlM (positionalStep w helps sub) (st, ts)
    .ok ({ x.1 with todo := st.todo.drop (matchPartial st.todo (ts.map (·.2.shape)) st.todo.length).length }, x.2)) := rfl

theorem positionals_fold_local (R : List (Text × ArgTok)) (l : List (ArgAction × Nat)) : ∀ (st : ArgState) (xs : List (Text × ArgTok)),
    (l.map (·.2)).sum ≤ xs.length →
    l.foldlM (positionalStep w helps sub) (st, xs ++ R) =
    (l.foldlM (positionalStep w helps sub) (st, xs)).map fun x => (x.1, x.2 ++ R) := by
  induction l with
  | nil => intro st xs _; rfl
  | cons y l ih =>
    intro st xs h
    simp only [List.map_cons, List.sum_cons] at h
    rw [List.foldlM_cons, List.foldlM_cons]
    simp only [positionalStep, List.take_append_of_le_length (show y.2 ≤ xs.length by omega),
      List.drop_append_of_le_length (show y.2 ≤ xs.length by omega)]
    cases takeAction w helps sub st y.1 ((xs.take y.2).map (·.1)) with
    | error e => rfl
    | ok s =>
      simp only [bind, Except.bind]
      exact ih s (xs.drop y.2) (by rw [List.length_drop]; omega)

theorem zip_sum (as : List ArgAction) (ns : List Nat) : ((as.zip ns).map (·.2)).sum ≤ ns.sum := by
  induction as generalizing ns with
  | nil => simp
  | cons a as ih =>
    cases ns with
    | nil => simp
    | cons n ns =>
      have := ih ns
      simp only [List.zip_cons_cons, List.map_cons, List.sum_cons]
      omega

theorem consumePositionals_local {st : ArgState} (h : ∀ a ∈ st.todo, a.kind ≠ .command) {R : List (Text × ArgTok)} (hR : OptFirst R)
    (xs : List (Text × ArgTok)) :
    consumePositionals w helps sub st (xs ++ R) = (consumePositionals w helps sub st xs).map fun x => (x.1, x.2 ++ R) := by
  obtain ⟨t, o, ts, rfl⟩ := hR
  have h1 : matchPartial st.todo ((xs ++ (t, ArgTok.opt o) :: ts).map (·.2.shape)) st.todo.length =
      matchPartial st.todo (xs.map (·.2.shape)) st.todo.length := by
    rw [List.map_append, List.map_cons]
    exact matchPartial_local h _ _
  have h2 := matchPartial_sum (acts := st.todo) (xs.map (·.2.shape)) st.todo.length
  rw [List.length_map] at h2
  rw [consumePositionals_eq, consumePositionals_eq, h1, positionals_fold_local _ _ _ _ (Nat.le_trans (zip_sum _ _) h2)]
  cases List.foldlM (positionalStep w helps sub) (st, xs)
      (st.todo.zip (matchPartial st.todo (xs.map (·.2.shape)) st.todo.length)) <;> rfl

/-! ### So do options -/

theorem optionCount_local {a : ArgAction} {R : List (Text × ArgTok)} (hR : OptFirst R) (xs : List (Text × ArgTok)) :
    optionCount a ((xs ++ R).map (·.2.shape)) = optionCount a (xs.map (·.2.shape)) := by
  obtain ⟨t, o, ts, rfl⟩ := hR
  have h1 : ∀ sx sy : List ArgShape, (sx ++ ArgShape.opt :: sy).takeWhile (· = .arg) = sx.takeWhile (· = .arg) := by
    intro sx sy
    induction sx with
    | nil => simp
    | cons s sx ih =>
      rw [List.cons_append, List.takeWhile_cons, List.takeWhile_cons, ih]
  rw [List.map_append, List.map_cons]
  unfold optionCount
  rw [show (t, ArgTok.opt o).2.shape = .opt from rfl, h1]
  cases xs with
  | nil => simp
  | cons x xs => simp

theorem optionCount_le {a : ArgAction} {ss : List ArgShape} {n : Nat} (h : optionCount a ss = .ok n) : n ≤ ss.length := by
  unfold optionCount at h
  split at h
  · cases h; omega
  · split at h
    · cases h
    · rename_i hh
      cases h
      split
      · exact (List.takeWhile_prefix _).length_le
      · cases ss with
        | nil => simp at hh
        | cons s ss => simp

theorem joined_local {R : List (Text × ArgTok)} (hR : OptFirst R) (xs : List (Text × ArgTok)) (e : Text) :
    ∀ (a : ArgAction) (flag : Text) (sep inner : Bool), optionActions.joined acts (xs ++ R) a flag sep inner e =
      (optionActions.joined acts xs a flag sep inner e).map fun x => (x.1, x.2.1 ++ R, x.2.2) := by
  induction e with
  | nil =>
    intro a flag sep inner
    rw [optionActions.joined.eq_def, optionActions.joined.eq_def]
    simp only [bind, Except.bind]
    split
    · rfl
    · split <;> rfl
  | cons c e ih =>
    intro a flag sep inner
    rw [optionActions.joined.eq_def, optionActions.joined.eq_def]
    simp only [bind, Except.bind]
    split
    · exact ih _ _ _ _
    · split
      · rfl
      · split
        · rfl
        · split
          · rfl
          · split
            · rfl
            · rename_i b _
              split
              · rw [optionCount_local hR]
                cases hc : optionCount b (xs.map (·.2.shape)) with
                | error e => rfl
                | ok n =>
                  have := optionCount_le hc
                  rw [List.length_map] at this
                  simp only [List.take_append_of_le_length this, List.drop_append_of_le_length this]
                  rfl
              · rw [ih]
                cases optionActions.joined acts xs b ['-', c] false true e <;> rfl

theorem optionActions_local {R : List (Text × ArgTok)} (hR : OptFirst R) (xs : List (Text × ArgTok)) (a : ArgAction) (flag : Text)
    (e : Option (Bool × Text)) : optionActions acts a flag (xs ++ R) e =
      (optionActions acts a flag xs e).map fun x => (x.1, x.2.1 ++ R, x.2.2) := by
  cases e with
  | some e => exact joined_local hR xs _ _ _ _ _
  | none =>
    simp only [optionActions]
    rw [optionCount_local hR]
    cases hc : optionCount a (xs.map (·.2.shape)) with
    | error e => rfl
    | ok n =>
      have := optionCount_le hc
      rw [List.length_map] at this
      simp only [bind, Except.bind, List.take_append_of_le_length this, List.drop_append_of_le_length this]
      rfl

theorem consumeOptional_local {R : List (Text × ArgTok)} (hR : OptFirst R) (st : ArgState) (t : Text)
    (o : Option (ArgAction × Text × Option (Bool × Text))) (xs : List (Text × ArgTok)) :
    consumeOptional w acts helps sub st t o (xs ++ R) =
      (consumeOptional w acts helps sub st t o xs).map fun x => (x.1, x.2 ++ R) := by
  cases o with
  | none => rfl
  | some o =>
    obtain ⟨a, flag, e⟩ := o
    simp only [consumeOptional]
    rw [optionActions_local hR]
    cases optionActions acts a flag xs e with
    | error e => rfl
    | ok x =>
      simp only [bind, Except.bind, Except.map]
      cases List.foldlM (m := Except ArgStop) (fun st (x : ArgAction × List Text) => takeAction w helps sub st x.1 x.2)
        { st with extras := st.extras ++ x.2.2 } x.1 <;> rfl

/-! ### What is left to do -/

theorem takeAction_todo {st st' : ArgState} {a : ArgAction} {args : List Text} (h : takeAction w helps sub st a args = .ok st') :
    st'.todo = st.todo := by
  unfold takeAction at h
  split at h
  · split at h <;> cases h
  · cases h; rfl
  · split at h
    · cases h
    · rename_i n r
      cases hs : sub n r with
      | error e => rw [hs] at h; cases h
      | ok x => rw [hs] at h; cases h; rfl
  · simp only at h
    split at h
    · split at h
      · cases h; rfl
      · split at h
        · cases h; rfl
        · cases h
    · split at h
      · rename_i t _
        cases hv : argValue w a t with
        | error e => rw [hv] at h; cases h
        | ok v =>
          rw [hv] at h
          simp only [bind, Except.bind] at h
          split at h <;> (cases h; rfl)
      · cases h; rfl

theorem consumeOptional_todo {st : ArgState} {t : Text} {o : Option (ArgAction × Text × Option (Bool × Text))}
    {ts : List (Text × ArgTok)} {x : ArgState × List (Text × ArgTok)} (h : consumeOptional w acts helps sub st t o ts = .ok x) :
    x.1.todo = st.todo := by
  unfold consumeOptional at h
  split at h
  · cases h; rfl
  · rename_i a flag e
    cases hl : optionActions acts a flag ts e with
    | error y => rw [hl] at h; cases h
    | ok y =>
      rw [hl] at h
      have hfold : ∀ (l : List (ArgAction × List Text)) (s s' : ArgState),
          l.foldlM (fun st x => takeAction w helps sub st x.1 x.2) s = .ok s' → s'.todo = s.todo := by
        intro l
        induction l with
        | nil => intro s s' h; cases h; rfl
        | cons z l ih =>
          intro s s' h
          rw [List.foldlM_cons] at h
          cases hz : takeAction w helps sub s z.1 z.2 with
          | error e => rw [hz] at h; cases h
          | ok s1 =>
            rw [hz] at h
            rw [ih _ _ h, takeAction_todo hz]
      simp only [bind, Except.bind] at h
      split at h
      · cases h
      · rename_i s hs
        cases h
        exact hfold y.1 { st with extras := st.extras ++ y.2.2 } s hs

theorem consumePositionals_todo {st : ArgState} {ts : List (Text × ArgTok)} {x : ArgState × List (Text × ArgTok)}
    (h : consumePositionals w helps sub st ts = .ok x) : ∀ a ∈ x.1.todo, a ∈ st.todo := by
  unfold consumePositionals at h
  simp only [bind, Except.bind] at h
  split at h
  · cases h
  · cases h
    exact fun a ha => List.mem_of_mem_drop ha

theorem consumePositionals_length {st : ArgState} {ts : List (Text × ArgTok)} {x : ArgState × List (Text × ArgTok)}
    (h : consumePositionals w helps sub st ts = .ok x) : x.2.length ≤ ts.length := by
  have hfold : ∀ (l : List (ArgAction × Nat)) (s s' : ArgState × List (Text × ArgTok)),
      l.foldlM (positionalStep w helps sub) s = .ok s' → s'.2.length ≤ s.2.length := by
    intro l
    induction l with
    | nil => intro s s' h; cases h; exact Nat.le_refl _
    | cons z l ih =>
      intro s s' h
      rw [List.foldlM_cons] at h
      unfold positionalStep at h
      cases hz : takeAction w helps sub s.1 z.1 ((s.2.take z.2).map (·.1)) with
      | error e => rw [hz] at h; cases h
      | ok s1 =>
        rw [hz] at h
        have := ih (s1, s.2.drop z.2) s' h
        simp only [List.length_drop] at this
        omega
  rw [consumePositionals_eq] at h
  cases hy : List.foldlM (positionalStep w helps sub) (st, ts) (st.todo.zip (matchPartial st.todo (ts.map (·.2.shape)) st.todo.length)) with
  | error e => rw [hy] at h; cases h
  | ok y =>
    rw [hy] at h
    cases h
    exact hfold _ _ _ hy

/-- A round of the loop that begins with an argument. -/
def argumentRound (w : ArgWorld) (acts : List ArgAction) (helps : List Text)
    (sub : Text → List Text → Except ArgStop (Dict String ArgVal × List Text)) (f : Nat) (st : ArgState) (ts : List (Text × ArgTok)) :
    Except ArgStop ArgState := do
  let x ← consumePositionals w helps sub st ts
  if x.2.length < ts.length then parseLoop w acts helps sub f x.1 x.2
  else
    parseLoop w acts helps sub f { x.1 with extras := x.1.extras ++ (ts.takeWhile fun x => x.2.shape ≠ .opt).map (·.1) }
      (ts.dropWhile fun x => x.2.shape ≠ .opt)

theorem parseLoop_argument {f : Nat} {st : ArgState} {ts : List (Text × ArgTok)} {t : Text} {k : ArgTok} (hk : k.shape ≠ .opt)
    (h : (((t, k) :: ts).all fun x => x.2.shape ≠ .opt) = false) :
    parseLoop w acts helps sub (f + 1) st ((t, k) :: ts) = argumentRound w acts helps sub f st ((t, k) :: ts) := by
  rw [parseLoop.eq_def]
  simp only
  rw [if_neg (by rw [h]; decide)]
  cases k with
  | opt o => exact absurd rfl hk
  | arg => rfl
  | dashes => rfl

theorem parseLoop_option {f : Nat} {st : ArgState} {ts : List (Text × ArgTok)} {t : Text}
    {o : Option (ArgAction × Text × Option (Bool × Text))} :
    parseLoop w acts helps sub (f + 1) st ((t, .opt o) :: ts) = (do
      let x ← consumeOptional w acts helps sub st t o ts
      parseLoop w acts helps sub f x.1 x.2) := by
  rw [parseLoop.eq_def]
  simp only
  rw [if_neg (by simp [ArgTok.shape])]

theorem while_local {S : List (Text × ArgTok)} (hS : OptFirst S) (zs : List (Text × ArgTok)) :
    (zs ++ S).takeWhile (fun x => decide (x.2.shape ≠ .opt)) = zs.takeWhile (fun x => decide (x.2.shape ≠ .opt)) ∧
    (zs ++ S).dropWhile (fun x => decide (x.2.shape ≠ .opt)) = zs.dropWhile (fun x => decide (x.2.shape ≠ .opt)) ++ S := by
  obtain ⟨t, o, ts, rfl⟩ := hS
  induction zs with
  | nil => simp [ArgTok.shape]
  | cons z zs ihz =>
    by_cases hz : z.2.shape = .opt
    · simp [hz]
    · rw [List.cons_append, List.takeWhile_cons_of_pos (by simpa using hz), List.takeWhile_cons_of_pos (by simpa using hz),
        List.dropWhile_cons_of_pos (by simpa using hz), List.dropWhile_cons_of_pos (by simpa using hz), ihz.1, ihz.2]
      exact ⟨rfl, rfl⟩

/-- If two ends that begin with options are treated alike, so they are behind any words. -/
theorem parseLoop_context {R R' : List (Text × ArgTok)} (hR : OptFirst R) (hR' : OptFirst R')
    (H : ∀ (f g : Nat) (st : ArgState), R.length < f → R'.length < g → parseLoop w acts helps sub f st R = parseLoop w acts helps sub g st R')
    (n : Nat) : ∀ (xs : List (Text × ArgTok)) (st : ArgState) (f g : Nat), xs.length ≤ n → (∀ a ∈ st.todo, a.kind ≠ .command) →
      (xs ++ R).length < f → (xs ++ R').length < g →
      parseLoop w acts helps sub f st (xs ++ R) = parseLoop w acts helps sub g st (xs ++ R') := by
  have hall : ∀ (xs S : List (Text × ArgTok)), OptFirst S → ((xs ++ S).all fun x => x.2.shape ≠ .opt) = false := by
    rintro xs S ⟨t, o, ts, rfl⟩
    simp [ArgTok.shape]
  induction n with
  | zero =>
    intro xs st f g hn _ hf hg
    obtain rfl : xs = [] := List.length_eq_zero_iff.1 (by omega)
    exact H f g st hf hg
  | succ n ih =>
    intro xs st f g hn hst hf hg
    cases xs with
    | nil => exact H f g st hf hg
    | cons x xs =>
      obtain ⟨f, rfl⟩ : ∃ f', f = f' + 1 := ⟨f - 1, by omega⟩
      obtain ⟨g, rfl⟩ : ∃ g', g = g' + 1 := ⟨g - 1, by omega⟩
      simp only [List.length_cons, List.cons_append, List.length_append] at hn hf hg
      obtain ⟨t, k⟩ := x
      have hpos : k.shape ≠ .opt → parseLoop w acts helps sub (f + 1) st ((t, k) :: xs ++ R) =
          parseLoop w acts helps sub (g + 1) st ((t, k) :: xs ++ R') := by
        intro hk
        refine (parseLoop_argument hk (hall ((t, k) :: xs) R hR)).trans (Eq.trans ?_ (parseLoop_argument hk (hall ((t, k) :: xs) R' hR')).symm)
        unfold argumentRound
        rw [show (t, k) :: (xs.append R) = ((t, k) :: xs) ++ R from rfl, show (t, k) :: (xs.append R') = ((t, k) :: xs) ++ R' from rfl,
          consumePositionals_local hst hR, consumePositionals_local hst hR']
        cases hc : consumePositionals w helps sub st ((t, k) :: xs) with
        | error e => rfl
        | ok y =>
          simp only [bind, Except.bind, Except.map]
          have h1 := consumePositionals_length hc
          have h2 : ∀ a ∈ y.1.todo, a.kind ≠ .command := fun a ha => hst a (consumePositionals_todo hc a ha)
          simp only [List.length_cons] at h1
          simp only [List.length_append, List.length_cons]
          by_cases hl : y.2.length < xs.length + 1
          · rw [if_pos (by omega), if_pos (by omega)]
            exact ih _ _ _ _ (by omega) h2 (by simp only [List.length_append]; omega) (by simp only [List.length_append]; omega)
          · rw [if_neg (by omega), if_neg (by omega)]
            have hd := (List.dropWhile_suffix (fun x : Text × ArgTok => decide (x.2.shape ≠ .opt)) (l := xs)).length_le
            rw [(while_local hR _).1, (while_local hR _).2, (while_local hR' _).1, (while_local hR' _).2,
              List.dropWhile_cons_of_pos (by simpa using hk)]
            exact ih _ _ _ _ (by omega) h2 (by simp only [List.length_append]; omega) (by simp only [List.length_append]; omega)
      cases k with
      | opt o =>
        simp only [List.cons_append]
        rw [parseLoop_option, parseLoop_option, consumeOptional_local hR, consumeOptional_local hR']
        cases hc : consumeOptional w acts helps sub st t o xs with
        | error e => rfl
        | ok y =>
          simp only [bind, Except.bind, Except.map]
          have h1 := consumeOptional_length hc
          refine ih _ _ _ _ (by omega) ?_ (by simp only [List.length_append]; omega) (by simp only [List.length_append]; omega)
          rw [consumeOptional_todo hc]
          exact hst
      | arg => exact hpos (by decide)
      | dashes => exact hpos (by decide)

end

end Lulua
