import Verif.Model.Carpalx
import Mathlib.Data.List.Sort

/-!
# Model of `lulua/optimize.py`

Random choices are an argument: the list of pairs drawn by the two calls of `random.choice` in `mutate`
(`optimize.py:188-189`). A computation that has used up the list waits for further draws (`Stop.drawing`), so a
loop that never ends is one that waits whatever it is given. Arithmetic is exact. `copy ()` of a state
(`optimize.py:119-122`) is the value itself. The progress bar and the log are left out.
-/

namespace Lulua

/-- Why a computation has not returned: an exception, or it needs more random draws. -/
inductive Stop where
  | raised (e : PyErr)
  | drawing
  deriving DecidableEq, Repr

/-- Result of a computation with random draws. -/
abbrev Rnd (α : Type) := Except Stop α

instance {α : Type} [DecidableEq α] : DecidableEq (Rnd α) := fun a b =>
  match a, b with
  | .ok x, .ok y => if h : x = y then isTrue (by rw [h]) else isFalse (by simpa using h)
  | .error x, .error y => if h : x = y then isTrue (by rw [h]) else isFalse (by simpa using h)
  | .ok _, .error _ => isFalse (by simp)
  | .error _, .ok _ => isFalse (by simp)

/-- A computation without draws. -/
def Rnd.lift {α : Type} : Py α → Rnd α
  | .ok x => .ok x
  | .error e => .error (.raised e)

/-! ### `Annealer` -/

/-- The variables of `Annealer.run` (`optimize.py:62-70`) together with `self.state` and `self.best`. -/
structure Anneal (σ : Type) where
  state : σ
  energy : Rat
  energyMax : Rat
  energyDiffMax : Rat
  best : σ × Rat

namespace Anneal
variable {σ ρ : Type}

/-- Before the loop (`optimize.py:64-70`). -/
def start (s : σ) : Anneal σ := ⟨s, 0, 0, 0, (s, 0)⟩

/-- `relDiff < acceptDiff` with `acceptDiff = 10**-(i/steps*6)` (`optimize.py:75-76,88`), written without roots:
both sides are raised to the power `steps`. See `acceptable_iff`. -/
def acceptable (steps i : Nat) (relDiff : Rat) : Bool := decide (relDiff ^ steps * 10 ^ (6 * i) < 1)

/-- `relDiff` (`optimize.py:84`). -/
def relDiff (energyDiffAbs energyDiffMax : Rat) : Rat :=
  if energyDiffMax ≠ 0 then energyDiffAbs / energyDiffMax else 1

/-- What is done once `mutate` has returned (`optimize.py:78-98`): `x` are the variables before, `s` the state and
`energyDiff` the result of `mutate`. -/
def judge (accept : Rat → Bool) (x : Anneal σ) (s : σ) (energyDiff : Rat) : Anneal σ :=
  let newEnergy := x.energy + energyDiff
  let energyMax := max newEnergy x.energyMax
  let energyDiffMax := max |energyDiff| x.energyDiffMax
  if energyDiff < 0 ∨ accept (relDiff |energyDiff| energyDiffMax) = true then
    { state := s
      energy := newEnergy
      energyMax := energyMax
      energyDiffMax := energyDiffMax
      best := if newEnergy < x.best.2 then (s, newEnergy) else x.best }
  else
    { state := x.state, energy := x.energy, energyMax := energyMax, energyDiffMax := energyDiffMax, best := x.best }

/-- Loop body (`optimize.py:73-98`) for step `i`. `ρ` is the source of randomness. -/
def step (accept : Nat → Rat → Bool) (mutate : σ → ρ → Rnd (Rat × σ × ρ)) (i : Nat) (x : Anneal σ × ρ) :
    Rnd (Anneal σ × ρ) :=
  match mutate x.1.state x.2 with
  | .error e => .error e
  | .ok (d, s, r) => .ok (judge (accept i) x.1 s d, r)

/-- The first `n` steps (`optimize.py:72`). -/
def loop (accept : Nat → Rat → Bool) (mutate : σ → ρ → Rnd (Rat × σ × ρ)) (x : Anneal σ × ρ) :
    Nat → Rnd (Anneal σ × ρ)
  | 0 => .ok x
  | n + 1 =>
    match loop accept mutate x n with
    | .error e => .error e
    | .ok y => step accept mutate n y

/-- `Annealer.run` (`optimize.py:62-100`); the result is in `best`. -/
def run (mutate : σ → ρ → Rnd (Rat × σ × ρ)) (steps : Nat) (s : σ) (r : ρ) : Rnd (Anneal σ × ρ) :=
  loop (acceptable steps) mutate (start s, r) steps

end Anneal

/-! ### `LayoutOptimizer` -/

/-- A key of the button map: layer number and button. -/
abbrev Pos := Nat × Button

/-- `buttonMap` (`optimize.py:130-131`). -/
abbrev ButtonMap := Dict Pos Pos

/-- A `Carpalx` object without its cache, which has no effect on results (`Props.C32_cache`). -/
structure Rater where
  env : CarpalxEnv
  absEffort : Rat
  N : Rat

namespace Rater

/-- `addTriad` (`carpalx.py:260-262`). -/
def add (r : Rater) (t : Triad) (n : Rat) : Py Rater := do
  let v ← r.env.triadEffort t
  .ok { r with absEffort := r.absEffort + n * v, N := r.N + n }

/-- `removeTriad` (`carpalx.py:264-266`). -/
def remove (r : Rater) (t : Triad) (n : Rat) : Py Rater := do
  let v ← r.env.triadEffort t
  .ok { r with absEffort := r.absEffort - n * v, N := r.N - n }

/-- `reset` (`carpalx.py:272-274`). -/
def reset (r : Rater) : Rater := { r with absEffort := 0, N := 0 }

/-- `effort` (`carpalx.py:284-289`). -/
def effort (r : Rater) : Rat := if r.N = 0 then 0 else r.absEffort / r.N

end Rater

/-- `LayoutOptimizerState` (`optimize.py:112-122`). -/
structure OptState where
  carpalx : Rater
  buttonMap : ButtonMap

/-- The attributes of `LayoutOptimizer` that never change (`optimize.py:145-167`). `enum` is the order in which
python iterates over a set of integers. -/
structure Optimizer where
  triads : List (Triad × Rat)
  layout : KeyboardLayout
  pins : List (Nat × Option Button)
  allButtons : List Pos
  stateToTriad : Dict Pos (List Nat)
  enum : List Nat → List Nat

/-- `l[i]` for a non-negative index. -/
def listIndex {α : Type} (l : List α) (i : Nat) : Py α :=
  match l[i]? with
  | some x => .ok x
  | none => .error .indexError

/-- Layer number and only button of a combination (`optimize.py:103-105` and `164-166`). -/
def combPos (L : KeyboardLayout) (c : Comb) : Py Pos := do
  let l ← L.modifierToLayer c.modifier
  if c.buttons.length ≠ 1 then .error .assertionError else
  let b ← first c.buttons
  .ok (l.1, b)

/-- `mapButton` (`optimize.py:102-110`). -/
def mapButton (L : KeyboardLayout) (bm : ButtonMap) (c : Comb) : Py Comb := do
  let p ← combPos L c
  let q ← bm.getItem p
  let l ← listIndex L.layers q.1
  let m ← listIndex l.modifier 0
  .ok { modifier := m, buttons := frozenset [q.2] }

/-- `tuple (mapButton (layout, buttonMap, x) for x in t)` (`optimize.py:205,214,232`). -/
def mapTriad (L : KeyboardLayout) (bm : ButtonMap) (t : Triad) : Py Triad := do
  let a ← mapButton L bm t.1
  let b ← mapButton L bm t.2.1
  let c ← mapButton L bm t.2.2
  .ok (a, b, c)

namespace Optimizer

/-- `self.stateToTriad[(layer, button)].add (i)` (`optimize.py:164-167`). -/
def noteComb (L : KeyboardLayout) (i : Nat) (d : Dict Pos (List Nat)) (c : Comb) : Py (Dict Pos (List Nat)) := do
  let p ← combPos L c
  let l := (d.get? p).getD []
  .ok (d.set p (if i ∈ l then l else l ++ [i]))

/-- The loop of `optimize.py:162-167`; `i` is the number of the first triad of the list. -/
def noteTriads (L : KeyboardLayout) : Nat → List (Triad × Rat) → Dict Pos (List Nat) → Py (Dict Pos (List Nat))
  | _, [], d => .ok d
  | i, (t, _) :: ts, d => do
    let d ← noteComb L i d t.1
    let d ← noteComb L i d t.2.1
    let d ← noteComb L i d t.2.2
    noteTriads L (i + 1) ts d

/-- `LayoutOptimizer.__init__` (`optimize.py:145-167`). -/
def init (bm : ButtonMap) (triads : List (Triad × Rat)) (L : KeyboardLayout) (pins : List (Nat × Option Button))
    (env : CarpalxEnv) (enum : List Nat → List Nat) : Py (Optimizer × OptState) := do
  let d ← noteTriads L 0 triads []
  .ok (⟨triads, L, pins, bm.keys, d, enum⟩, ⟨⟨env, 0, 0⟩, bm⟩)

/-- `_acceptMutation` (`optimize.py:169-182`). -/
def acceptMutation (O : Optimizer) (bm : ButtonMap) (a b : Pos) : Py Bool :=
  if a = b then .ok false else do
  let newa ← bm.getItem b
  let newb ← bm.getItem a
  .ok !(decide ((a.1, some a.2) ∈ O.pins) || decide ((b.1, some b.2) ∈ O.pins) ||
    (decide ((a.1, none) ∈ O.pins) && decide (newa.1 ≠ a.1)) ||
    (decide ((b.1, none) ∈ O.pins) && decide (newb.1 ≠ b.1)))

/-- The loop of `mutate` (`optimize.py:187-191`). `random.choice` of an empty sequence raises `IndexError`. -/
def drawPair (O : Optimizer) (bm : ButtonMap) : List (Pos × Pos) → Rnd ((Pos × Pos) × List (Pos × Pos))
  | [] => if O.allButtons = [] then .error (.raised .indexError) else .error .drawing
  | (a, b) :: ds =>
    if O.allButtons = [] then .error (.raised .indexError) else
    match O.acceptMutation bm a b with
    | .error e => .error (.raised e)
    | .ok true => .ok ((a, b), ds)
    | .ok false => drawPair O bm ds

/-- `buttonMap[b], buttonMap[a] = buttonMap[a], buttonMap[b]` (`optimize.py:193,210,324`). -/
def swap (bm : ButtonMap) (a b : Pos) : Py ButtonMap := do
  let va ← bm.getItem a
  let vb ← bm.getItem b
  .ok ((bm.set b va).set a vb)

/-- The triad numbers `chain (self.stateToTriad[a], self.stateToTriad[b])` without repetitions (`optimize.py:202`). -/
def affected (O : Optimizer) (a b : Pos) : List Nat :=
  O.enum (((O.stateToTriad.get? a).getD [] ++ (O.stateToTriad.get? b).getD []).dedup)

/-- Lines 203-208: remove the triads with these numbers. -/
def removeAll (O : Optimizer) (bm : ButtonMap) : List Nat → Rater → Py Rater
  | [], r => .ok r
  | i :: is, r => do
    let t ← listIndex O.triads i
    let t' ← mapTriad O.layout bm t.1
    let r ← r.remove t' t.2
    removeAll O bm is r

/-- Lines 212-215: add the triads with these numbers. -/
def addAll (O : Optimizer) (bm : ButtonMap) : List Nat → Rater → Py Rater
  | [], r => .ok r
  | i :: is, r => do
    let t ← listIndex O.triads i
    let t' ← mapTriad O.layout bm t.1
    let r ← r.add t' t.2
    addAll O bm is r

/-- `mutate` after the choice of `a` and `b` (`optimize.py:196-219`). -/
def exchange (O : Optimizer) (s : OptState) (a b : Pos) : Py (Rat × OptState) := do
  let is := O.affected a b
  let r ← O.removeAll s.buttonMap is s.carpalx
  let bm ← swap s.buttonMap a b
  let r ← O.addAll bm is r
  .ok (r.effort - s.carpalx.effort, ⟨r, bm⟩)

/-- `mutate ()` (`optimize.py:184-219`). -/
def mutate (O : Optimizer) (s : OptState) (ds : List (Pos × Pos)) : Rnd (Rat × OptState × List (Pos × Pos)) :=
  match O.drawPair s.buttonMap ds with
  | .error e => .error e
  | .ok (ab, ds) =>
    match O.exchange s ab.1 ab.2 with
    | .error e => .error (.raised e)
    | .ok (d, s) => .ok (d, s, ds)

/-- `mutate (withEnergy=False)` (`optimize.py:184-194`). -/
def mutateOnly (O : Optimizer) (s : OptState) (ds : List (Pos × Pos)) : Rnd (OptState × List (Pos × Pos)) :=
  match O.drawPair s.buttonMap ds with
  | .error e => .error e
  | .ok (ab, ds) =>
    match swap s.buttonMap ab.1 ab.2 with
    | .error e => .error (.raised e)
    | .ok bm => .ok (⟨s.carpalx, bm⟩, ds)

/-- `for i in range (n): opt.mutate (withEnergy=False)` (`optimize.py:341-342`). -/
def randomize (O : Optimizer) : Nat → OptState × List (Pos × Pos) → Rnd (OptState × List (Pos × Pos))
  | 0, x => .ok x
  | n + 1, x =>
    match O.mutateOnly x.1 x.2 with
    | .error e => .error e
    | .ok x => randomize O n x

/-- The loop of `_resetEnergy` (`optimize.py:231-233`). -/
def rateAll (L : KeyboardLayout) (bm : ButtonMap) : List (Triad × Rat) → Rater → Py Rater
  | [], r => .ok r
  | (t, v) :: ts, r => do
    let t' ← mapTriad L bm t
    let r ← r.add t' v
    rateAll L bm ts r

/-- `_resetEnergy` (`optimize.py:225-234`). -/
def resetEnergy (O : Optimizer) (s : OptState) : Py OptState := do
  let r ← rateAll O.layout s.buttonMap O.triads s.carpalx.reset
  .ok ⟨r, s.buttonMap⟩

/-- `LayoutOptimizer.run` (`optimize.py:236-238`). -/
def run (O : Optimizer) (steps : Nat) (s : OptState) (ds : List (Pos × Pos)) :
    Rnd (Anneal OptState × List (Pos × Pos)) :=
  match O.resetEnergy s with
  | .error e => .error (.raised e)
  | .ok s => Anneal.run O.mutate steps s ds

end Optimizer

/-! ### `optimize ()` -/

/-- The keys of the initial button map in one layer (`optimize.py:308-316`). -/
def mutableButtons (L : KeyboardLayout) (kb : PhysicalKeyboard) : List Button :=
  (kb.keys.filter fun k => k.kind = .letter && !L.isModifier (frozenset [k.i])).map Btn.i

/-- The initial button map (`optimize.py:303-317`). -/
def identityMap (L : KeyboardLayout) (kb : PhysicalKeyboard) : ButtonMap :=
  Dict.ofPairs ((List.range L.layers.length).flatMap fun i => (mutableButtons L kb).map fun b => ((i, b), (i, b)))

/-- `--mutate` (`optimize.py:320-324`). No key of the map has a negative layer number. -/
def applyMutations (t : InternTable) (kb : PhysicalKeyboard) : List ((Int × String) × (Int × String)) → ButtonMap → Py ButtonMap
  | [], bm => .ok bm
  | ((i, a), (j, b)) :: ms, bm => do
    let a ← kb.find t a
    let b ← kb.find t b
    if i < 0 ∨ j < 0 then .error .keyError else
    let bm ← Optimizer.swap bm (i.toNat, a.i) (j.toNat, b.i)
    applyMutations t kb ms bm

/-- Expansion of a pin (`optimize.py:326-336`). `fnmatch` is the library function. A pin with a negative layer number
equals no position, it is dropped. -/
def expandPin (t : InternTable) (kb : PhysicalKeyboard) (fnmatch : String → String → Bool) :
    Int × Option String → Py (List (Nat × Option Button))
  | (layer, none) => .ok (if layer < 0 then [] else [(layer.toNat, none)])
  | (layer, some m) => do
    let ns ← kb.keys.mapM fun k => t.nameOf k.i
    .ok (if layer < 0 then [] else
      ((kb.keys.zip ns).filter fun x => fnmatch x.2 m).map fun x => (layer.toNat, some x.1.i))

/-- `sorted (triads.items (), key=itemgetter (1), reverse=True)` (`optimize.py:297`): a stable sort, largest first. -/
def sortTriads (ts : List (Triad × Rat)) : List (Triad × Rat) := ts.insertionSort fun a b => b.2 ≤ a.2

/-- `--triad-limit` (`optimize.py:297-299`). -/
def limitTriads (limit : Nat) (ts : List (Triad × Rat)) : List (Triad × Rat) :=
  if limit > 0 then (sortTriads ts).take limit else sortTriads ts

/-- The value written for `k` of layer `l` and the name it is written under (`optimize.py:372`). -/
def emittedEntry (t : InternTable) (L : KeyboardLayout) (l : Layer) (k newK : Button) : Py (String × LVal) := do
  let m ← listIndex l.modifier 0
  let v ← L.getText { modifier := m, buttons := frozenset [k] }
  let n ← t.nameOf newK
  .ok (n, v)

/-- `for k in keyboard.keys ()` (`optimize.py:362-375`) for layer `i`. The assertion of line 370 compares a button with
names, is true, and is left out. -/
def emitKeys (t : InternTable) (L : KeyboardLayout) (bm : ButtonMap) (i : Nat) (l : Layer) :
    List Button → List GLayer → Py (List GLayer)
  | [], ls => .ok ls
  | k :: ks, ls => do
    let q := (bm.get? (i, k)).getD (i, k)
    let g ← listIndex ls q.1
    match emittedEntry t L l k q.2 with
    | .ok e => emitKeys t L bm i l ks (ls.set q.1 { g with layout := g.layout.set e.1 e.2 })
    | .error .keyError => emitKeys t L bm i l ks ls
    | .error e => .error e

/-- `for i, l in enumerate (layout.layers)` (`optimize.py:359-375`); `i` is the number of the first layer of the list. -/
def emitLayers (t : InternTable) (L : KeyboardLayout) (kb : PhysicalKeyboard) (bm : ButtonMap) :
    Nat → List Layer → List GLayer → Py (List GLayer)
  | _, [], ls => .ok ls
  | i, l :: rest, ls => do
    let g ← listIndex ls i
    let ms ← l.modifier.mapM fun m => m.mapM t.nameOf
    let ls ← emitKeys t L bm i l (kb.keys.map Btn.i) (ls.set i { g with modifier := g.modifier ++ ms })
    emitLayers t L kb bm (i + 1) rest ls

/-- The layout that is printed (`optimize.py:358-377`). -/
def emit (t : InternTable) (L : KeyboardLayout) (kb : PhysicalKeyboard) (bm : ButtonMap) : Py LayoutData := do
  let ls ← emitLayers t L kb bm 0 L.layers (L.layers.map fun _ => ⟨[], []⟩)
  .ok ⟨L.name ++ "-new", ls⟩

/-- Command line arguments and the objects made from them (`optimize.py:269-295`). -/
structure OptArgs where
  table : InternTable
  keyboard : PhysicalKeyboard
  layout : KeyboardLayout
  env : CarpalxEnv
  triads : List (Triad × Rat)
  triadLimit : Nat
  steps : Nat
  randomize : Bool
  pin : List (Int × Option String)
  mutations : List ((Int × String) × (Int × String))
  fnmatch : String → String → Bool
  enum : List Nat → List Nat

/-- What is printed: the energy and the layout. Also the button map used for the latter. -/
structure OptResult where
  energy : Rat
  layout : LayoutData
  buttonMap : ButtonMap
  deriving DecidableEq

/-- Before the random part (`optimize.py:296-338`). -/
def optimizeSetup (x : OptArgs) : Py (Optimizer × OptState) := do
  let triads := limitTriads x.triadLimit x.triads
  let bm ← applyMutations x.table x.keyboard x.mutations (identityMap x.layout x.keyboard)
  let pins ← x.pin.mapM (expandPin x.table x.keyboard x.fnmatch)
  Optimizer.init bm triads x.layout pins.flatten x.env x.enum

/-- After the run (`optimize.py:343-379`): `last` is the state of the optimizer, `best` the state returned. Sets are
compared as sets. -/
def optimizeFinish (x : OptArgs) (O : Optimizer) (last best : OptState) : Py OptResult := do
  let energy := last.carpalx.effort
  let bm := best.buttonMap
  if ¬ ((∀ k ∈ bm.keys, k ∈ bm.values) ∧ ∀ v ∈ bm.values, v ∈ bm.keys) then .error .assertionError else
  let last ← O.resetEnergy last
  if ¬ |last.carpalx.effort - energy| < 1 / 10000 then .error .assertionError else
  let d ← emit x.table x.layout x.keyboard bm
  .ok ⟨energy, d, bm⟩

/-- `optimize ()` (`optimize.py:269-383`) with the random draws `ds`. -/
def optimize (x : OptArgs) (ds : List (Pos × Pos)) : Rnd OptResult :=
  match optimizeSetup x with
  | .error e => .error (.raised e)
  | .ok (O, s) =>
    match (if x.randomize then O.randomize (s.buttonMap.length * 2) (s, ds) else .ok (s, ds)) with
    | .error e => .error e
    | .ok (s, ds) =>
      match O.run x.steps s ds with
      | .error e => .error e
      | .ok (y, _) => Rnd.lift (optimizeFinish x O y.state y.best.1)

end Lulua
