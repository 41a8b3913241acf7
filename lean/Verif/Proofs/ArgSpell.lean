import Verif.Proofs.ArgLocal
import Verif.Spec.ArgSpell

/-!
# Proofs about the ways to write options
-/

namespace Lulua
open Spec

/-! ### Flags -/

theorem optionFlags_fst (acts : List ArgAction) : (optionFlags acts).map (·.1) = acts.flatMap (·.flags) := by
  unfold optionFlags
  rw [List.map_flatMap]
  congr 1
  funext a
  rw [List.map_map]
  exact List.map_id _

theorem mem_optionFlags {acts : List ArgAction} {x : Text × ArgAction} : x ∈ optionFlags acts ↔ x.2 ∈ acts ∧ x.1 ∈ x.2.flags := by
  unfold optionFlags
  obtain ⟨f, a⟩ := x
  constructor
  · intro h
    obtain ⟨b, hb, h⟩ := List.mem_flatMap.1 h
    obtain ⟨g, hg, he⟩ := List.mem_map.1 h
    cases he
    exact ⟨hb, hg⟩
  · rintro ⟨ha, hf⟩
    exact List.mem_flatMap.2 ⟨a, ha, List.mem_map.2 ⟨f, hf, rfl⟩⟩

theorem mem_flags_of {acts : List ArgAction} {x : Text × ArgAction} (h : x ∈ optionFlags acts) : x.1 ∈ acts.flatMap (·.flags) := by
  rw [← optionFlags_fst]
  exact List.mem_map_of_mem h

/-- If one element alone passes, the result is this one. -/
theorem filterMap_only {α β : Type} {l : List (Text × α)} (hn : (l.map (·.1)).Nodup) {x : Text × α} (hx : x ∈ l) {g : Text × α → Option β}
    {b : β} (hb : g x = some b) (ho : ∀ y ∈ l, y.1 ≠ x.1 → g y = none) : l.filterMap g = [b] := by
  induction l with
  | nil => cases hx
  | cons y l ih =>
    simp only [List.map_cons, List.nodup_cons] at hn
    rcases List.mem_cons.1 hx with rfl | hx
    · rw [List.filterMap_cons, hb]
      simp only [List.cons.injEq, true_and, List.filterMap_eq_nil_iff]
      intro z hz
      apply ho z (List.mem_cons_of_mem _ hz)
      intro hc
      exact hn.1 (by rw [← hc]; exact List.mem_map_of_mem hz)
    · have hy : g y = none := by
        apply ho y List.mem_cons_self
        intro hc
        exact hn.1 (by rw [hc]; exact List.mem_map_of_mem hx)
      rw [List.filterMap_cons, hy]
      exact ih hn.2 hx fun z hz => ho z (List.mem_cons_of_mem _ hz)

section
variable {u : UniNum} {acts : List ArgAction} {a : ArgAction} {f p v : Text}

theorem findFlag_mem (ht : TidyFlags acts) (ha : a ∈ acts) (hf : f ∈ a.flags) : findFlag acts f = some a := by
  unfold findFlag
  have h1 : (optionFlags acts).find? (fun x => decide (x.1 = f)) = some (f, a) := by
    have hn : ((optionFlags acts).map (·.1)).Nodup := by rw [optionFlags_fst]; exact ht.1
    have hx : (f, a) ∈ optionFlags acts := mem_optionFlags.2 ⟨ha, hf⟩
    generalize optionFlags acts = l at hn hx
    induction l with
    | nil => cases hx
    | cons y l ih =>
      simp only [List.map_cons, List.nodup_cons] at hn
      rcases List.mem_cons.1 hx with rfl | hx
      · simp
      · rw [List.find?_cons_of_neg, ih hn.2 hx]
        intro hc
        exact hn.1 (by rw [of_decide_eq_true hc]; exact List.mem_map_of_mem hx)
  rw [h1]
  rfl

theorem findFlag_none (h : f ∉ acts.flatMap (·.flags)) : findFlag acts f = none := by
  unfold findFlag
  rw [Option.map_eq_none_iff, List.find?_eq_none]
  intro x hx hc
  exact h (by rw [← of_decide_eq_true hc]; exact mem_flags_of hx)

theorem flag_tidy (ht : TidyFlags acts) (ha : a ∈ acts) (hf : f ∈ a.flags) : '=' ∉ f ∧ flagShape f = true :=
  ht.2 f (List.mem_flatMap.2 ⟨a, ha, hf⟩)

theorem flagShape_dash (h : flagShape f = true) : f.head? = some '-' := by
  unfold flagShape at h
  split at h
  · rfl
  · rfl
  · cases h

theorem flagShape_two (h : flagShape f = true) : f ≠ ['-', '-'] := by
  rintro rfl
  simp [flagShape] at h

theorem flagShape_short (h : flagShape f = true) (hl : f.length = 2) : ∃ c, c ≠ '-' ∧ f = ['-', c] := by
  unfold flagShape at h
  split at h
  · rename_i c
    exact ⟨c, by simpa using h, rfl⟩
  · simp at hl
  · cases h

theorem flagShape_long (h : flagShape f = true) (hl : 3 ≤ f.length) : ∃ r, f = '-' :: '-' :: r := by
  unfold flagShape at h
  split at h
  · simp at hl
  · rename_i c r
    exact ⟨c :: r, rfl⟩
  · cases h

theorem enough_long (ht : TidyFlags acts) (ha : a ∈ acts) (hf : f ∈ a.flags) (hp : Enough acts f p) :
    (∃ c r, p = '-' :: '-' :: c :: r) ∧ '=' ∉ p := by
  obtain ⟨h1, h2⟩ := flag_tidy ht ha hf
  obtain ⟨r, rfl⟩ := flagShape_long h2 (Nat.le_trans hp.2.1 hp.1.length_le)
  refine ⟨?_, fun hc => h1 (hp.1.subset hc)⟩
  obtain ⟨s, hs⟩ := hp.1
  have hl := hp.2.1
  match p, hl, hs with
  | x :: y :: c :: q, _, hs =>
    simp only [List.cons_append, List.cons.injEq] at hs
    exact ⟨c, q, by rw [hs.1, hs.2.1]⟩

theorem findFlag_enough (hp : Enough acts f p) (hne : p ≠ f) : findFlag acts p = none :=
  findFlag_none fun hc => hne (hp.2.2 p hc (List.prefix_refl p))

theorem tuples_enough (ht : TidyFlags acts) (ha : a ∈ acts) (hf : f ∈ a.flags) (hp : Enough acts f p) {β : Type} (g : ArgAction × Text → β) :
    ((optionFlags acts).filterMap fun x => if p.isPrefixOf x.1 then some (g (x.2, x.1)) else none) = [g (a, f)] := by
  refine filterMap_only (x := (f, a)) (by rw [optionFlags_fst]; exact ht.1) (mem_optionFlags.2 ⟨ha, hf⟩) ?_ ?_
  · simp [hp.1]
  · intro y hy hne
    rw [if_neg]
    intro hc
    exact hne (hp.2.2 y.1 (mem_flags_of hy) (by simpa using hc))

theorem classify_short (ht : TidyFlags acts) (ha : a ∈ acts) (hf : f ∈ a.flags) (hp : Enough acts f p) :
    classify u acts p = .ok (.opt (some (a, f, none))) := by
  obtain ⟨⟨c, r, hr⟩, heq⟩ := enough_long ht ha hf hp
  by_cases hpf : p = f
  · rw [hpf]
    exact classify_flag (flagShape_dash (flag_tidy ht ha hf).2) (findFlag_mem ht ha hf)
  · have h1 := findFlag_enough hp hpf
    have h2 := tuples_enough ht ha hf hp (fun x => (x.1, x.2, (none : Option (Bool × Text))))
    have h3 : optionTuples acts p = [(a, f, none)] := by
      have hs := splitFirst_none heq
      rw [← h2]
      subst hr
      unfold optionTuples
      simp only [hs, Option.map_none]
    rw [classify, if_neg (by rw [hr]; simp), h1]
    simp only [if_neg (show p.length ≠ 1 by rw [hr]; simp), splitFirst_none heq, Option.bind_none, h3]

theorem classify_shortEquals (ht : TidyFlags acts) (ha : a ∈ acts) (hf : f ∈ a.flags) (hp : Enough acts f p) (v : Text) :
    classify u acts (p ++ '=' :: v) = .ok (.opt (some (a, f, some (true, v)))) := by
  obtain ⟨⟨c, r, hr⟩, heq⟩ := enough_long ht ha hf hp
  have hall : ∀ x ∈ optionFlags acts, '=' ∉ x.1 := fun x hx => (ht.2 x.1 (mem_flags_of hx)).1
  by_cases hpf : p = f
  · rw [hpf]
    exact classify_glued (flagShape_dash (flag_tidy ht ha hf).2) (findFlag_mem ht ha hf) (flag_tidy ht ha hf).1 hall
  · have h0 : findFlag acts (p ++ '=' :: v) = none := findFlag_none fun hc => (ht.2 _ hc).1 (by simp)
    have h1 := findFlag_enough hp hpf
    have h2 := tuples_enough ht ha hf hp (fun x => (x.1, x.2, some (true, v)))
    have hs := splitFirst_some (r := v) heq
    have h3 : optionTuples acts (p ++ '=' :: v) = [(a, f, some (true, v))] := by
      rw [← h2]
      subst hr
      simp only [List.cons_append] at hs ⊢
      unfold optionTuples
      simp only [hs, Option.map_some]
    rw [classify, if_neg (by rw [hr]; simp), h0]
    simp only [if_neg (show (p ++ '=' :: v).length ≠ 1 by rw [hr]; simp), hs, Option.bind_some, h1, Option.map_none, h3]

theorem splitFirst_fst_prefix (c : Char) (t : Text) : (splitFirst c t).1 <+: t := by
  induction t with
  | nil => exact List.prefix_refl _
  | cons x t ih =>
    rw [splitFirst]
    split
    · exact List.nil_prefix
    · exact List.prefix_cons_inj x |>.2 ih

theorem splitFirst_fst_cons {c x : Char} (h : x ≠ c) (t : Text) : (splitFirst c (x :: t)).1 = x :: (splitFirst c t).1 := by
  rw [splitFirst, if_neg h]

theorem classify_stuck (ht : TidyFlags acts) (ha : a ∈ acts) (hf : f ∈ a.flags) (hl : f.length = 2) (hv : v ≠ [])
    (he : v.head? ≠ some '=') : classify u acts (f ++ v) = .ok (.opt (some (a, f, some (false, v)))) := by
  obtain ⟨h1, h2⟩ := flag_tidy ht ha hf
  obtain ⟨c, hc, rfl⟩ := flagShape_short h2 hl
  obtain ⟨d, e, rfl⟩ : ∃ d e, v = d :: e := by
    cases v with
    | nil => exact absurd rfl hv
    | cons d e => exact ⟨d, e, rfl⟩
  have hd : d ≠ '=' := by simpa using he
  have hnf : ∀ s : Text, ('-' :: c :: d :: s) ∉ acts.flatMap (·.flags) := by
    intro s hm
    obtain ⟨r, hr⟩ := flagShape_long (ht.2 _ hm).2 (by simp)
    simp only [List.cons.injEq] at hr
    exact hc hr.2.1
  have hce : c ≠ '=' := by
    rintro rfl
    exact h1 (by simp)
  have hx : (splitFirst '=' ('-' :: c :: d :: e)).1 = '-' :: c :: d :: (splitFirst '=' e).1 := by
    rw [splitFirst_fst_cons (by decide), splitFirst_fst_cons hce, splitFirst_fst_cons hd]
  have h3 : optionTuples acts ('-' :: c :: d :: e) = [(a, ['-', c], some (false, d :: e))] := by
    have : optionTuples acts ('-' :: c :: d :: e) = (optionFlags acts).filterMap fun f =>
        if f.1 = ['-', c] then some (f.2, f.1, some (false, d :: e))
        else if ('-' :: c :: d :: e).isPrefixOf f.1 then some (f.2, f.1, none) else none := by
      rw [optionTuples.eq_def]
      split
      · rename_i heq
        simp only [List.cons.injEq] at heq
        exact absurd heq.2.1 hc
      · rfl
    rw [this]
    refine filterMap_only (x := (['-', c], a)) (by rw [optionFlags_fst]; exact ht.1) (mem_optionFlags.2 ⟨ha, hf⟩) (if_pos rfl) ?_
    intro y hy hne
    rw [if_neg hne, if_neg]
    intro hp
    obtain ⟨s, hs⟩ := List.isPrefixOf_iff_prefix.1 hp
    have := mem_flags_of hy
    rw [← hs] at this
    exact hnf _ this
  change classify u acts ('-' :: c :: d :: e) = _
  rw [classify, if_neg (by simp), findFlag_none (hnf e)]
  simp only [if_neg (show ('-' :: c :: d :: e).length ≠ 1 by simp)]
  rw [hx, findFlag_none (hnf _)]
  simp only [Option.map_none, Option.bind_fun_none, h3]

theorem tokens_append_eq {as bs : List Text} (hn : ['-', '-'] ∉ as) : tokens u acts (as ++ bs) = (do
    let ta ← tokens u acts as
    let tb ← tokens u acts bs
    .ok (ta ++ tb)) := by
  induction as with
  | nil =>
    rw [List.nil_append]
    cases h : tokens u acts bs with
    | error e => rfl
    | ok t => rfl
  | cons t as ih =>
    simp only [List.mem_cons, not_or] at hn
    rw [List.cons_append, tokens, if_neg (Ne.symm hn.1), tokens, if_neg (Ne.symm hn.1), ih hn.2]
    cases classify u acts t with
    | error e => rfl
    | ok k =>
      cases tokens u acts as with
      | error e => rfl
      | ok ta => cases tokens u acts bs <;> rfl

end

/-! ### What a spelled option does -/

section
variable {w : ArgWorld} {acts : List ArgAction} {helps : List Text}
  {sub : Text → List Text → Except ArgStop (Dict String ArgVal × List Text)}

/-- The words, whatever is behind them, make the parser take this action with these arguments. -/
def Does (w : ArgWorld) (acts : List ArgAction) (helps : List Text)
    (sub : Text → List Text → Except ArgStop (Dict String ArgVal × List Text)) (ws : List Text) (a : ArgAction) (args : List Text) : Prop :=
  ['-', '-'] ∉ ws ∧ ∃ t o ts, tokens w.uni acts ws = .ok ((t, .opt (some o)) :: ts) ∧
    ∀ st r, consumeOptional w acts helps sub st t (some o) (ts ++ r) = (takeAction w helps sub st a args).map (·, r)

theorem does_one {a : ArgAction} {f t : Text} {e : Option (Bool × Text)} {ts : List (Text × ArgTok)} {args : List Text}
    (h : ∀ r, optionActions acts a f (ts ++ r) e = .ok ([(a, args)], r, [])) (st : ArgState) (r : List (Text × ArgTok)) :
    consumeOptional w acts helps sub st t (some (a, f, e)) (ts ++ r) = (takeAction w helps sub st a args).map (·, r) := by
  simp only [consumeOptional, h, bind, Except.bind, List.append_nil, List.foldlM_cons, List.foldlM_nil]
  cases takeAction w helps sub st a args <;> rfl

theorem actions_apart {a : ArgAction} (h1 : OneValue a) (f v : Text) (r : List (Text × ArgTok)) :
    optionActions acts a f ([(v, .arg)] ++ r) none = .ok ([(a, [v])], r, []) := by
  have h0 : optionCount a (([(v, ArgTok.arg)] ++ r).map (·.2.shape)) = .ok 1 := by
    obtain ⟨hk, hm⟩ := h1
    rcases hk with hk | hk <;> simp [optionCount, hk, hm, ArgTok.shape]
  simp only [optionActions]
  rw [h0]
  rfl

theorem actions_same {a : ArgAction} (h1 : OneValue a) (f v : Text) (b : Bool) (r : List (Text × ArgTok)) :
    optionActions acts a f ([] ++ r) (some (b, v)) = .ok ([(a, [v])], r, []) := by
  have h0 : optionCount a [.arg] = .ok 1 := by
    obtain ⟨hk, hm⟩ := h1
    rcases hk with hk | hk <;> simp [optionCount, hk, hm]
  simp only [optionActions, List.nil_append]
  cases v with
  | nil => simp [optionActions.joined, h0, bind, Except.bind]
  | cons c e => simp [optionActions.joined, h0, bind, Except.bind]

theorem actions_flag {a : ArgAction} (h1 : a.kind = .storeTrue) (f : Text) (r : List (Text × ArgTok)) :
    optionActions acts a f ([] ++ r) none = .ok ([(a, [])], r, []) := by
  have h0 : optionCount a (r.map (·.2.shape)) = .ok 0 := by simp [optionCount, h1]
  simp only [optionActions, List.nil_append]
  rw [h0]
  rfl

theorem equals_ne_dashes (p v : Text) : ['-', '-'] ∉ [p ++ '=' :: v] := by
  intro hc
  have : '=' ∈ ['-', '-'] := by rw [List.mem_singleton.1 hc]; simp
  revert this
  decide

theorem tokens_two {u : UniNum} {t v : Text} {k : ArgTok} (h : t ≠ ['-', '-']) (hk : classify u acts t = .ok k) (hv : PlainWord v) :
    ['-', '-'] ∉ [t, v] ∧ tokens u acts [t, v] = .ok [(t, k), (v, .arg)] :=
  ⟨by simpa using ⟨Ne.symm h, Ne.symm (plain_ne_dashes hv)⟩,
    tokens_cons h hk (tokens_cons (plain_ne_dashes hv) (classify_plain hv) rfl)⟩

theorem tokens_one {u : UniNum} {t : Text} {k : ArgTok} (h : ['-', '-'] ∉ [t]) (hk : classify u acts t = .ok k) :
    tokens u acts [t] = .ok [(t, k)] := tokens_cons (by simpa using Ne.symm (by simpa using h)) hk rfl

theorem enough_ne_dashes {f p : Text} (hp : Enough acts f p) : p ≠ ['-', '-'] := by
  rintro rfl
  have := hp.2.1
  simp at this

theorem value_does (ht : TidyFlags acts) {a : ArgAction} (ha : a ∈ acts) (h1 : OneValue a) {v : Text} {ws : List Text}
    (h : ValueSpelling acts a v ws) : Does w acts helps sub ws a [v] := by
  have hall : ∀ x ∈ optionFlags acts, '=' ∉ x.1 := fun x hx => (ht.2 x.1 (mem_flags_of hx)).1
  cases h with
  | apart f hf hv =>
    have h2 := (flag_tidy ht ha hf).2
    obtain ⟨h3, h4⟩ := tokens_two (flagShape_two h2) (classify_flag (u := w.uni) (flagShape_dash h2) (findFlag_mem ht ha hf)) hv
    exact ⟨h3, _, _, _, h4, does_one fun r => actions_apart h1 f v r⟩
  | equals f hf =>
    have h2 := flag_tidy ht ha hf
    exact ⟨equals_ne_dashes f v, _, _, _, tokens_one (equals_ne_dashes f v)
      (classify_glued (flagShape_dash h2.2) (findFlag_mem ht ha hf) h2.1 hall), does_one fun r => actions_same h1 f v _ r⟩
  | stuck f hf hl hv he =>
    have hn : ['-', '-'] ∉ [f ++ v] := by
      obtain ⟨c, hc, rfl⟩ := flagShape_short (flag_tidy ht ha hf).2 hl
      simp [Ne.symm hc]
    exact ⟨hn, _, _, _, tokens_one hn (classify_stuck ht ha hf hl hv he), does_one fun r => actions_same h1 f v _ r⟩
  | short f p hf hp hv =>
    obtain ⟨h3, h4⟩ := tokens_two (enough_ne_dashes hp) (classify_short (u := w.uni) ht ha hf hp) hv
    exact ⟨h3, _, _, _, h4, does_one fun r => actions_apart h1 f v r⟩
  | shortEquals f p hf hp =>
    exact ⟨equals_ne_dashes p v, _, _, _, tokens_one (equals_ne_dashes p v) (classify_shortEquals ht ha hf hp v),
      does_one fun r => actions_same h1 f v _ r⟩

theorem flag_does (ht : TidyFlags acts) {a : ArgAction} (ha : a ∈ acts) (h1 : a.kind = .storeTrue) {ws : List Text}
    (h : FlagSpelling acts a ws) : Does w acts helps sub ws a [] := by
  cases h with
  | whole f hf =>
    have h2 := (flag_tidy ht ha hf).2
    have hn : ['-', '-'] ∉ [f] := by simpa using Ne.symm (flagShape_two h2)
    exact ⟨hn, _, _, _, tokens_one hn (classify_flag (u := w.uni) (flagShape_dash h2) (findFlag_mem ht ha hf)),
      does_one fun r => actions_flag h1 f r⟩
  | short f p hf hp =>
    have hn : ['-', '-'] ∉ [p] := by simpa using Ne.symm (enough_ne_dashes hp)
    exact ⟨hn, _, _, _, tokens_one hn (classify_short (u := w.uni) ht ha hf hp), does_one fun r => actions_flag h1 f r⟩

theorem same_does (ht : TidyFlags acts) {x y : List Text} (h : SameOption acts x y) :
    ∃ a args, a ∈ acts ∧ Does w acts helps sub x a args ∧ Does w acts helps sub y a args := by
  cases h with
  | value a ha h1 v hv hx hy => exact ⟨a, [v], ha, value_does ht ha h1 (by assumption), value_does ht ha h1 (by assumption)⟩
  | flag a ha h1 hx hy => exact ⟨a, [], ha, flag_does ht ha h1 (by assumption), flag_does ht ha h1 (by assumption)⟩

/-- Ends that begin with the same option. -/
theorem does_same {x y : List Text} {a : ArgAction} {args : List Text} (hx : Does w acts helps sub x a args)
    (hy : Does w acts helps sub y a args) {tx ty : List (Text × ArgTok)} (htx : tokens w.uni acts x = .ok tx)
    (hty : tokens w.uni acts y = .ok ty) (r r' : List (Text × ArgTok))
    (H : ∀ (f g : Nat) (st : ArgState), r.length < f → r'.length < g →
      parseLoop w acts helps sub f st r = parseLoop w acts helps sub g st r') :
    OptFirst (tx ++ r) ∧ OptFirst (ty ++ r') ∧ ∀ (f g : Nat) (st : ArgState), (tx ++ r).length < f → (ty ++ r').length < g →
      parseLoop w acts helps sub f st (tx ++ r) = parseLoop w acts helps sub g st (ty ++ r') := by
  obtain ⟨_, t, o, ts, h1, h2⟩ := hx
  obtain ⟨_, t', o', ts', h1', h2'⟩ := hy
  obtain rfl : (t, ArgTok.opt (some o)) :: ts = tx := Except.ok.inj (h1.symm.trans htx)
  obtain rfl : (t', ArgTok.opt (some o')) :: ts' = ty := Except.ok.inj (h1'.symm.trans hty)
  refine ⟨⟨_, _, _, rfl⟩, ⟨_, _, _, rfl⟩, fun f g st hf hg => ?_⟩
  obtain ⟨f, rfl⟩ : ∃ f', f = f' + 1 := ⟨f - 1, by omega⟩
  obtain ⟨g, rfl⟩ : ∃ g', g = g' + 1 := ⟨g - 1, by omega⟩
  simp only [List.cons_append, List.length_cons, List.length_append] at hf hg ⊢
  rw [parseLoop_option, parseLoop_option, h2, h2']
  cases takeAction w helps sub st a args with
  | error e => rfl
  | ok s => exact H f g s (by omega) (by omega)

/-! ### Parsers -/

theorem todo_noCommands {p : ArgParser} (h : NoCommands p.actions) : ∀ a ∈ p.actions.filter (·.flags.isEmpty), a.kind ≠ .command :=
  fun a ha => h a (List.mem_filter.1 ha).1

/-- Two ends alike, behind the same words. -/
theorem parseKnown_context {p : ArgParser} (hc : NoCommands p.actions) {pre x y post : List Text} (hp : ['-', '-'] ∉ pre)
    (hx : ['-', '-'] ∉ x) (hy : ['-', '-'] ∉ y) {tx ty : List (Text × ArgTok)} (htx : tokens w.uni p.actions x = .ok tx)
    (hty : tokens w.uni p.actions y = .ok ty)
    (H : ∀ r, OptFirst (tx ++ r) ∧ OptFirst (ty ++ r) ∧ ∀ (f g : Nat) (st : ArgState), (tx ++ r).length < f → (ty ++ r).length < g →
      parseLoop w p.actions (p.actions.map (·.help) ++ p.helps) sub f st (tx ++ r) =
        parseLoop w p.actions (p.actions.map (·.help) ++ p.helps) sub g st (ty ++ r)) :
    p.parseKnown w sub (pre ++ (x ++ post)) = p.parseKnown w sub (pre ++ (y ++ post)) := by
  unfold ArgParser.parseKnown
  rw [tokens_append_eq hp, tokens_append_eq hp, tokens_append_eq hx, tokens_append_eq hy, htx, hty]
  cases tokens w.uni p.actions pre with
  | error e => rfl
  | ok ta =>
    cases tokens w.uni p.actions post with
    | error e => rfl
    | ok tb =>
      simp only [bind, Except.bind]
      obtain ⟨h1, h2, h3⟩ := H tb
      rw [parseLoop_context h1 h2 h3 ta.length ta _ _ ((ta ++ (ty ++ tb)).length + 1) (Nat.le_refl _) (todo_noCommands hc)
        (Nat.lt_succ_self _) (Nat.lt_succ_self _)]

theorem parseKnown_same {p : ArgParser} (ht : TidyFlags p.actions) (hc : NoCommands p.actions) {pre x y post : List Text}
    (hp : ['-', '-'] ∉ pre) (h : SameOption p.actions x y) :
    p.parseKnown w sub (pre ++ (x ++ post)) = p.parseKnown w sub (pre ++ (y ++ post)) := by
  obtain ⟨a, args, _, hx, hy⟩ := same_does (w := w) (helps := p.actions.map (·.help) ++ p.helps) (sub := sub) ht h
  have hx' := hx
  have hy' := hy
  obtain ⟨hnx, t, o, ts, h1, _⟩ := hx'
  obtain ⟨hny, t', o', ts', h1', _⟩ := hy'
  exact parseKnown_context hc hp hnx hny h1 h1' fun r => does_same hx hy h1 h1' r r fun f g st hf hg => parseLoop_fuel f g st r hf hg

/-- Options in front of everything else. -/
theorem tokens_same (ht : TidyFlags acts) {l : List (List Text × List Text)} (h : ∀ z ∈ l, SameOption acts z.1 z.2) (post : List Text)
    (helps : List Text) (sub : Text → List Text → Except ArgStop (Dict String ArgVal × List Text)) :
    (∃ e, tokens w.uni acts (l.flatMap (·.1) ++ post) = .error e ∧ tokens w.uni acts (l.flatMap (·.2) ++ post) = .error e) ∨
    ∃ tx ty, tokens w.uni acts (l.flatMap (·.1) ++ post) = .ok tx ∧ tokens w.uni acts (l.flatMap (·.2) ++ post) = .ok ty ∧
      ∀ (f g : Nat) (st : ArgState), tx.length < f → ty.length < g →
        parseLoop w acts helps sub f st tx = parseLoop w acts helps sub g st ty := by
  induction l with
  | nil =>
    cases hp : tokens w.uni acts post with
    | error e => exact .inl ⟨e, hp, hp⟩
    | ok t => exact .inr ⟨t, t, hp, hp, fun f g st hf hg => parseLoop_fuel f g st t hf hg⟩
  | cons z l ih =>
    obtain ⟨a, args, _, hx, hy⟩ := same_does (w := w) (helps := helps) (sub := sub) ht (h z List.mem_cons_self)
    have hx' := hx
    have hy' := hy
    obtain ⟨hnx, t, o, ts, h1, _⟩ := hx'
    obtain ⟨hny, t', o', ts', h1', _⟩ := hy'
    rw [List.flatMap_cons, List.flatMap_cons, List.append_assoc, List.append_assoc, tokens_append_eq hnx, tokens_append_eq hny, h1, h1']
    rcases ih fun z hz => h z (List.mem_cons_of_mem _ hz) with ⟨e, h2, h3⟩ | ⟨tx, ty, h2, h3, h4⟩
    · exact .inl ⟨e, by rw [h2]; rfl, by rw [h3]; rfl⟩
    · refine .inr ⟨_, _, by rw [h2]; rfl, by rw [h3]; rfl, ?_⟩
      exact (does_same hx hy h1 h1' tx ty h4).2.2

theorem parseKnown_before {p : ArgParser} (ht : TidyFlags p.actions) {l : List (List Text × List Text)}
    (h : ∀ z ∈ l, SameOption p.actions z.1 z.2) (post : List Text) :
    p.parseKnown w sub (l.flatMap (·.1) ++ post) = p.parseKnown w sub (l.flatMap (·.2) ++ post) := by
  unfold ArgParser.parseKnown
  rcases tokens_same (w := w) ht h post (p.actions.map (·.help) ++ p.helps) sub with ⟨e, h1, h2⟩ | ⟨tx, ty, h1, h2, h3⟩
  · rw [h1, h2]
  · rw [h1, h2]
    simp only [bind, Except.bind]
    rw [h3 _ (ty.length + 1) _ (Nat.lt_succ_self _) (Nat.lt_succ_self _)]

/-! ### Short options in one word -/

/-- What follows a short option in its word. -/
def wordRest : Text → Option (Bool × Text)
  | [] => none
  | c :: e => if c = '=' then some (true, e) else some (false, c :: e)

theorem classify_word (ht : TidyFlags acts) {b : ArgAction} (hb : b ∈ acts) {d : Char} (hd : ['-', d] ∈ b.flags) (u : UniNum) (e : Text) :
    classify u acts ('-' :: d :: e) = .ok (.opt (some (b, ['-', d], wordRest e))) := by
  have h2 := flag_tidy ht hb hd
  have hall : ∀ x ∈ optionFlags acts, '=' ∉ x.1 := fun x hx => (ht.2 x.1 (mem_flags_of hx)).1
  cases e with
  | nil => exact classify_flag rfl (findFlag_mem ht hb hd)
  | cons c e =>
    by_cases hc : c = '='
    · rw [wordRest, if_pos hc, hc]
      exact classify_glued (f := ['-', d]) (v := e) rfl (findFlag_mem ht hb hd) h2.1 hall
    · rw [wordRest, if_neg hc]
      exact classify_stuck ht hb hd rfl (by simp) (by simpa using hc)

theorem classify_dash_ne (ht : TidyFlags acts) {b : ArgAction} (hb : b ∈ acts) {d : Char} (hd : ['-', d] ∈ b.flags) : d ≠ '-' := by
  rintro rfl
  exact flagShape_two (flag_tidy ht hb hd).2 rfl

theorem joined_split (ht : TidyFlags acts) {a b : ArgAction} (ha : a ∈ acts) (hb : b ∈ acts) (hk : a.kind = .storeTrue) {c d : Char}
    (hc : ['-', c] ∈ a.flags) (hd : ['-', d] ∈ b.flags) (e : Text) (ts : List (Text × ArgTok)) :
    optionActions acts a ['-', c] ts (some (false, d :: e)) = (do
      let x ← optionActions acts b ['-', d] ts (wordRest e)
      .ok ((a, []) :: x.1, x.2)) := by
  have h0 : optionCount a [.arg] = .ok 0 := by simp [optionCount, hk]
  have hcd := classify_dash_ne ht ha hc
  have hdd := classify_dash_ne ht hb hd
  simp only [optionActions]
  rw [optionActions.joined.eq_def]
  simp only [Bool.false_eq_true, false_and, if_false, h0, bind, Except.bind]
  rw [if_neg (by decide), if_neg (by simp [hcd, hdd]), findFlag_mem ht hb hd]
  cases e with
  | nil =>
    simp only [if_true, wordRest]
    cases optionCount b (ts.map (·.2.shape)) <;> rfl
  | cons x e =>
    simp only [reduceCtorEq, if_false]
    by_cases hx : x = '='
    · simp only [wordRest, if_pos hx]
      rw [optionActions.joined.eq_def]
      simp only [hx, and_self, if_true]
    · simp only [wordRest, if_neg hx]
      have : optionActions.joined acts ts b ['-', d] false true (x :: e) = optionActions.joined acts ts b ['-', d] false false (x :: e) := by
        rw [optionActions.joined.eq_def, optionActions.joined.eq_def]
        simp [hx]
      rw [this]

theorem parseKnown_joined {p : ArgParser} (ht : TidyFlags p.actions) (hn : NoCommands p.actions) {a b : ArgAction} (ha : a ∈ p.actions)
    (hb : b ∈ p.actions) (hk : a.kind = .storeTrue) {c d : Char} (hc : ['-', c] ∈ a.flags) (hd : ['-', d] ∈ b.flags) (e : Text)
    {pre : List Text} (hp : ['-', '-'] ∉ pre) (post : List Text) :
    p.parseKnown w sub (pre ++ ([['-', c] ++ d :: e] ++ post)) =
      p.parseKnown w sub (pre ++ ([['-', c], '-' :: d :: e] ++ post)) := by
  have hcd := classify_dash_ne ht ha hc
  have hdd := classify_dash_ne ht hb hd
  have hde : d ≠ '=' := by
    rintro rfl
    exact (flag_tidy ht hb hd).1 (by simp)
  have n1 : ['-', c] ++ d :: e ≠ ['-', '-'] := by simp
  have n2 : ['-', c] ≠ ['-', '-'] := by simp [hcd]
  have n3 : '-' :: d :: e ≠ ['-', '-'] := by simp [hdd]
  have t1 := classify_stuck (u := w.uni) ht ha hc rfl (show d :: e ≠ [] by simp) (by simpa using hde)
  have t2 := classify_flag (u := w.uni) (t := ['-', c]) rfl (findFlag_mem ht ha hc)
  have t3 := classify_word ht hb hd w.uni e
  refine parseKnown_context hn hp (by simp) (by simpa [eq_comm] using ⟨hcd, fun h => absurd h hdd⟩) (tokens_cons n1 t1 rfl)
    (tokens_cons n2 t2 (tokens_cons n3 t3 rfl)) fun r => ⟨⟨_, _, _, rfl⟩, ⟨_, _, _, rfl⟩, fun f g st hf hg => ?_⟩
  obtain ⟨f, rfl⟩ : ∃ f', f = f' + 1 := ⟨f - 1, by omega⟩
  obtain ⟨g, rfl⟩ : ∃ g', g = g' + 2 := ⟨g - 2, by simp at hg; omega⟩
  simp only [List.cons_append, List.nil_append, List.length_cons] at hf hg ⊢
  rw [parseLoop_option, parseLoop_option]
  have h1 := does_one (w := w) (helps := p.actions.map (·.help) ++ p.helps) (sub := sub) (acts := p.actions) (t := ['-', c]) (ts := [])
    (fun r => actions_flag hk ['-', c] r)
  simp only [List.nil_append] at h1
  rw [h1]
  have h2 : ∀ st : ArgState, takeAction w (p.actions.map (·.help) ++ p.helps) sub st a [] =
      .ok { st with ns := st.ns.set a.dest (.flag true), seen := a.dest :: st.seen } := by
    intro st
    simp [takeAction, hk]
  rw [h2]
  simp only [bind, Except.bind, Except.map]
  rw [parseLoop_option]
  simp only [consumeOptional]
  rw [joined_split ht ha hb hk hc hd]
  simp only [bind, Except.bind]
  cases hz : optionActions p.actions b ['-', d] r (wordRest e) with
  | error x => rfl
  | ok x =>
    simp only [List.foldlM_cons, h2, bind, Except.bind]
    cases hs : x.1.foldlM (m := Except ArgStop) (fun st (x : ArgAction × List Text) =>
        takeAction w (p.actions.map (·.help) ++ p.helps) sub st x.1 x.2)
        { st with ns := st.ns.set a.dest (.flag true), seen := a.dest :: st.seen, extras := st.extras ++ x.2.2 } with
    | error y => rfl
    | ok s =>
      have hl : x.2.1.length ≤ r.length := by
        have := consumeOptional_length (w := w) (acts := p.actions) (helps := p.actions.map (·.help) ++ p.helps) (sub := sub)
          (st := { st with ns := st.ns.set a.dest (.flag true), seen := a.dest :: st.seen }) (t := []) (o := some (b, ['-', d], wordRest e))
          (ts := r) (x := (s, x.2.1)) (by
            simp only [consumeOptional, hz, bind, Except.bind]
            rw [hs])
        exact this
      exact parseLoop_fuel _ _ _ _ (by simp only; omega) (by simp only; omega)

/-! ### Nothing is forgotten -/

theorem takeAction_extras {st st' : ArgState} {a : ArgAction} {args : List Text} (h : takeAction w helps sub st a args = .ok st') :
    ∀ t ∈ st.extras, t ∈ st'.extras := by
  unfold takeAction at h
  split at h
  · split at h <;> cases h
  · cases h; exact fun _ h => h
  · split at h
    · cases h
    · rename_i n r
      cases hs : sub n r with
      | error e => rw [hs] at h; cases h
      | ok x => rw [hs] at h; cases h; exact fun _ h => List.mem_append_left _ h
  · simp only at h
    split at h
    · split at h
      · cases h; exact fun _ h => h
      · split at h
        · cases h; exact fun _ h => h
        · cases h
    · split at h
      · rename_i t _
        cases hv : argValue w a t with
        | error e => rw [hv] at h; cases h
        | ok v =>
          rw [hv] at h
          simp only [bind, Except.bind] at h
          split at h <;> (cases h; exact fun _ h => h)
      · cases h; exact fun _ h => h

theorem consumeOptional_extras {st : ArgState} {t : Text} {o : Option (ArgAction × Text × Option (Bool × Text))}
    {ts : List (Text × ArgTok)} {x : ArgState × List (Text × ArgTok)} (h : consumeOptional w acts helps sub st t o ts = .ok x) :
    ∀ t ∈ st.extras, t ∈ x.1.extras := by
  unfold consumeOptional at h
  split at h
  · cases h; exact fun _ h => List.mem_append_left _ h
  · rename_i a flag e
    cases hl : optionActions acts a flag ts e with
    | error y => rw [hl] at h; cases h
    | ok y =>
      rw [hl] at h
      have hfold : ∀ (l : List (ArgAction × List Text)) (s s' : ArgState),
          l.foldlM (fun st x => takeAction w helps sub st x.1 x.2) s = .ok s' → ∀ t ∈ s.extras, t ∈ s'.extras := by
        intro l
        induction l with
        | nil => intro s s' h; cases h; exact fun _ h => h
        | cons z l ih =>
          intro s s' h t ht
          rw [List.foldlM_cons] at h
          cases hz : takeAction w helps sub s z.1 z.2 with
          | error e => rw [hz] at h; cases h
          | ok s1 =>
            rw [hz] at h
            exact ih _ _ h t (takeAction_extras hz t ht)
      simp only [bind, Except.bind] at h
      split at h
      · cases h
      · rename_i s hs
        cases h
        exact fun t ht => hfold y.1 { st with extras := st.extras ++ y.2.2 } s hs t (List.mem_append_left _ ht)

theorem consumePositionals_extras {st : ArgState} {ts : List (Text × ArgTok)} {x : ArgState × List (Text × ArgTok)}
    (h : consumePositionals w helps sub st ts = .ok x) : ∀ t ∈ st.extras, t ∈ x.1.extras := by
  have hfold : ∀ (l : List (ArgAction × Nat)) (s s' : ArgState × List (Text × ArgTok)),
      l.foldlM (positionalStep w helps sub) s = .ok s' → ∀ t ∈ s.1.extras, t ∈ s'.1.extras := by
    intro l
    induction l with
    | nil => intro s s' h; cases h; exact fun _ h => h
    | cons z l ih =>
      intro s s' h t ht
      rw [List.foldlM_cons] at h
      unfold positionalStep at h
      cases hz : takeAction w helps sub s.1 z.1 ((s.2.take z.2).map (·.1)) with
      | error e => rw [hz] at h; cases h
      | ok s1 =>
        rw [hz] at h
        exact ih (s1, s.2.drop z.2) s' h t (takeAction_extras hz t ht)
  rw [consumePositionals_eq] at h
  cases hy : List.foldlM (positionalStep w helps sub) (st, ts) (st.todo.zip (matchPartial st.todo (ts.map (·.2.shape)) st.todo.length)) with
  | error e => rw [hy] at h; cases h
  | ok y =>
    rw [hy] at h
    cases h
    exact hfold _ _ _ hy

theorem parseLoop_extras (f : Nat) : ∀ (st st' : ArgState) (ts : List (Text × ArgTok)), parseLoop w acts helps sub f st ts = .ok st' →
    ∀ t ∈ st.extras, t ∈ st'.extras := by
  induction f with
  | zero => intro st st' ts h; cases h
  | succ f ih =>
    intro st st' ts h t ht
    rw [parseLoop.eq_def] at h
    simp only at h
    split at h
    · cases hc : consumePositionals w helps sub st ts with
      | error e => rw [hc] at h; cases h
      | ok x =>
        rw [hc] at h
        cases h
        exact List.mem_append_left _ (consumePositionals_extras hc t ht)
    · split at h
      · rename_i t' o r _
        cases hc : consumeOptional w acts helps sub st t' o r with
        | error e => rw [hc] at h; cases h
        | ok x =>
          rw [hc] at h
          exact ih _ _ _ h t (consumeOptional_extras hc t ht)
      · cases hc : consumePositionals w helps sub st ts with
        | error e => rw [hc] at h; cases h
        | ok x =>
          rw [hc] at h
          simp only [bind, Except.bind] at h
          have := consumePositionals_extras hc t ht
          split at h
          · exact ih _ _ _ h t this
          · exact ih _ _ _ h t (List.mem_append_left _ this)

/-- Without commands, the parser gets to every option. -/
theorem parseLoop_reaches {R : List (Text × ArgTok)} (hR : OptFirst R) (n : Nat) : ∀ (xs : List (Text × ArgTok)) (st s : ArgState) (f : Nat),
    xs.length ≤ n → (∀ a ∈ st.todo, a.kind ≠ .command) → parseLoop w acts helps sub f st (xs ++ R) = .ok s →
    ∃ g st', parseLoop w acts helps sub g st' R = .ok s := by
  have hall : ∀ (xs : List (Text × ArgTok)), ((xs ++ R).all fun x => x.2.shape ≠ .opt) = false := by
    obtain ⟨t, o, ts, rfl⟩ := hR
    intro xs
    simp [ArgTok.shape]
  induction n with
  | zero =>
    intro xs st s f hn _ h
    obtain rfl : xs = [] := List.length_eq_zero_iff.1 (by omega)
    exact ⟨f, st, h⟩
  | succ n ih =>
    intro xs st s f hn hst h
    cases xs with
    | nil => exact ⟨f, st, h⟩
    | cons x xs =>
      cases f with
      | zero => cases h
      | succ f =>
      simp only [List.length_cons] at hn
      obtain ⟨t, k⟩ := x
      have hpos : k.shape ≠ .opt → ∃ g st', parseLoop w acts helps sub g st' R = .ok s := by
        intro hk
        have h0 := (parseLoop_argument (w := w) (acts := acts) (helps := helps) (sub := sub) (f := f) (st := st) hk
          (hall ((t, k) :: xs))).symm.trans h
        unfold argumentRound at h0
        replace h := h0
        rw [show (t, k) :: (xs.append R) = ((t, k) :: xs) ++ R from rfl, consumePositionals_local hst hR] at h
        cases hc : consumePositionals w helps sub st ((t, k) :: xs) with
        | error e => rw [hc] at h; cases h
        | ok y =>
          rw [hc] at h
          simp only [bind, Except.bind, Except.map] at h
          have h1 := consumePositionals_length hc
          have h2 : ∀ a ∈ y.1.todo, a.kind ≠ .command := fun a ha => hst a (consumePositionals_todo hc a ha)
          simp only [List.length_cons] at h1
          simp only [List.length_append, List.length_cons] at h
          by_cases hl : y.2.length < xs.length + 1
          · rw [if_pos (by omega)] at h
            exact ih _ _ _ _ (by omega) h2 h
          · rw [if_neg (by omega)] at h
            have hd := (List.dropWhile_suffix (fun x : Text × ArgTok => decide (x.2.shape ≠ .opt)) (l := xs)).length_le
            rw [(while_local hR _).1, (while_local hR _).2, List.dropWhile_cons_of_pos (by simpa using hk)] at h
            refine ih (xs.dropWhile fun x => decide (x.2.shape ≠ .opt)) _ _ _ (by omega) ?_ h
            exact h2
      cases k with
      | opt o =>
        rw [List.cons_append, parseLoop_option, consumeOptional_local hR] at h
        cases hc : consumeOptional w acts helps sub st t o xs with
        | error e => rw [hc] at h; cases h
        | ok y =>
          rw [hc] at h
          have h1 := consumeOptional_length hc
          refine ih _ _ _ _ (by omega) ?_ h
          rw [consumeOptional_todo hc]
          exact hst
      | arg => exact hpos (by decide)
      | dashes => exact hpos (by decide)

/-- No flag begins like the word. -/
theorem classify_else {u : UniNum} (ht : TidyFlags acts) {c : Char} {r : Text}
    (h1 : c = '-' → r ≠ [] ∧ ∀ f ∈ acts.flatMap (·.flags), ¬ ('-' :: c :: r).takeWhile (· ≠ '=') <+: f)
    (h2 : c ≠ '-' → ['-', c] ∉ acts.flatMap (·.flags)) :
    classify u acts ('-' :: c :: r) =
      if negativeNumber u ('-' :: c :: r) || ('-' :: c :: r).contains ' ' then .ok .arg else .ok (.opt none) := by
  have hsplit : ∀ t : Text, (splitFirst '=' t).1 = t.takeWhile (· ≠ '=') := by
    intro t
    induction t with
    | nil => rfl
    | cons x t ih =>
      rw [splitFirst]
      by_cases hx : x = '='
      · simp [hx]
      · simp [hx, ih]
  -- neither the word nor what is before `=` is a flag
  have hx : ∀ s : Text, (splitFirst '=' ('-' :: c :: r)).1 = s → findFlag acts s = none := by
    intro s hs
    apply findFlag_none
    intro hm
    by_cases hc : c = '-'
    · exact (h1 hc).2 s hm (by rw [← hsplit, hs])
    · by_cases hl : s.length = 2
      · obtain ⟨d, hd, rfl⟩ := flagShape_short (ht.2 _ hm).2 hl
        have := splitFirst_fst_prefix '=' ('-' :: c :: r)
        rw [hs] at this
        obtain ⟨q, hq⟩ := this
        simp only [List.cons_append, List.cons.injEq] at hq
        exact h2 hc (by rw [← hq.2.1]; exact hm)
      · have := splitFirst_fst_prefix '=' ('-' :: c :: r)
        rw [hs] at this
        have hsh := (ht.2 _ hm).2
        have hl3 : 3 ≤ s.length := by
          unfold flagShape at hsh
          split at hsh
          · simp at hl
          · simp
          · cases hsh
        obtain ⟨q, hq⟩ := flagShape_long hsh hl3
        obtain ⟨z, hz⟩ := this
        rw [hq] at hz
        simp only [List.cons_append, List.cons.injEq] at hz
        exact hc hz.2.1.symm
  have hself : findFlag acts ('-' :: c :: r) = none := by
    apply findFlag_none
    intro hm
    exact absurd (findFlag_none (f := '-' :: c :: r) (acts := acts)) (by
      intro _
      have he := (ht.2 _ hm).1
      have h3 := hx _ (by rw [splitFirst_none he])
      obtain ⟨a, ha, hf⟩ := List.mem_flatMap.1 hm
      rw [findFlag_mem ht ha hf] at h3
      cases h3)
  have htup : optionTuples acts ('-' :: c :: r) = [] := by
    rw [optionTuples.eq_def]
    split
    · rename_i heq
      simp only [List.cons.injEq, true_and] at heq
      simp only [List.filterMap_eq_nil_iff]
      intro y hy
      rw [if_neg]
      intro hp
      rw [hsplit] at hp
      exact (h1 heq.1).2 y.1 (mem_flags_of hy) (by simpa using hp)
    · rename_i hnn
      have hc : c ≠ '-' := by
        rintro rfl
        exact hnn r rfl
      simp only [List.filterMap_eq_nil_iff]
      intro y hy
      rw [if_neg, if_neg]
      · intro hp
        have hp := List.isPrefixOf_iff_prefix.1 hp
        have hm := mem_flags_of hy
        have hsh := (ht.2 _ hm).2
        obtain ⟨z, hz⟩ := hp
        by_cases hl : y.1.length = 2
        · rw [← hz] at hl hm
          have hr : r = [] ∧ z = [] := by
            simpa using hl
          obtain ⟨rfl, rfl⟩ := hr
          exact h2 hc hm
        · have hl3 : 3 ≤ y.1.length := by
            unfold flagShape at hsh
            split at hsh
            · rename_i heq; rw [heq] at hl; simp at hl
            · rename_i heq; rw [heq]; simp
            · cases hsh
          obtain ⟨q, hq⟩ := flagShape_long hsh hl3
          rw [hq] at hz
          simp only [List.cons_append, List.cons.injEq] at hz
          exact hc hz.2.1
      · intro hy2
        have hm := mem_flags_of hy
        rw [hy2] at hm
        exact h2 hc hm
  rw [classify, if_neg (by simp), hself]
  simp only [if_neg (show ('-' :: c :: r).length ≠ 1 by simp)]
  rw [hx _ rfl]
  simp only [Option.map_none, Option.bind_fun_none, htup]

theorem unknown_none {u : UniNum} {t : Text} (ht : TidyFlags acts) (h : UnknownOption u acts t) :
    t ≠ ['-', '-'] ∧ classify u acts t = .ok (.opt none) := by
  obtain ⟨c, r, rfl, hb, hd, hdot, h1, h2⟩ := h
  have hnum : negativeNumber u ('-' :: c :: r) = false := by
    simp only [negativeNumber, List.isEmpty_cons, Bool.not_false, Bool.true_and, List.all_cons, hd, Option.isSome_none, Bool.false_and,
      Bool.false_or]
    rw [List.dropWhile_cons_of_neg (by simp [hd])]
    split
    · rename_i heq
      simp only [List.cons.injEq] at heq
      exact absurd heq.1 hdot
    · rfl
  have hne : '-' :: c :: r ≠ ['-', '-'] := by
    intro hc
    simp only [List.cons.injEq, true_and] at hc
    exact (h1 hc.1).1 hc.2
  refine ⟨hne, ?_⟩
  rw [classify_else ht h1 h2, hnum, Bool.false_or, if_neg]
  simpa using hb

/-- A negative number is a value. -/
theorem classify_negative {u : UniNum} (hu : PlainNum u) (ht : TidyFlags acts)
    (hd : ∀ c : Char, c.isDigit = true → ['-', c] ∉ acts.flatMap (·.flags)) {i : Int} (hi : i < 0) :
    classify u acts (decimal i) = .ok .arg := by
  obtain ⟨n, hn⟩ : ∃ n, decimal i = '-' :: Nat.toDigits 10 n := by
    rcases decimal_cases i with ⟨h, _⟩ | ⟨_, h⟩
    · omega
    · exact ⟨_, h⟩
  rw [hn]
  have hdig : ∀ c ∈ Nat.toDigits 10 n, c.isDigit = true := fun c hc => Nat.isDigit_of_mem_toDigits (by omega) (by omega) hc
  have hne : Nat.toDigits 10 n ≠ [] := Nat.toDigits_ne_nil
  obtain ⟨c, r, hcr⟩ : ∃ c r, Nat.toDigits 10 n = c :: r := by
    cases h : Nat.toDigits 10 n with
    | nil => exact absurd h hne
    | cons c r => exact ⟨c, r, rfl⟩
  rw [hcr] at hdig ⊢
  have hc := hdig c List.mem_cons_self
  rw [classify_else ht (fun h => by rw [h] at hc; exact absurd hc (by decide)) (fun _ => hd c hc), if_pos]
  have h1 : ((c :: r).all fun c => (u.digit c).isSome) = true := by
    rw [List.all_eq_true]
    intro x hx
    rw [(hu.digit x (hdig x hx)).1]
    rfl
  simp only [negativeNumber, h1]
  simp

end

end Lulua
