import Verif.Model.Stats
import Mathlib.Algebra.Order.Field.Rat

/-!
# Model of `lulua/carpalx.py`

Floats are rational numbers.
-/

namespace Lulua

/-- `ModelParams` (`carpalx.py:43-44`). -/
structure ModelParams where
  kBPS : Rat × Rat × Rat
  k123S : Rat × Rat × Rat × Rat
  w0HRF : Rat × Rat × Rat × Rat
  pHand : Dict Direction Rat
  pRow : List Rat
  pFinger : Dict Direction (Dict Finger Rat)
  fHRF : Rat × Rat × Rat
  baselineEffort : Dict String Rat
  deriving DecidableEq, Repr

/-- What a `Carpalx` object looks things up in: the parameters, `writer.getHandFinger`, `Button.name` and
`writer.layout.keyboard.getRow` (`carpalx.py:246,249-250`). -/
structure CarpalxEnv where
  params : ModelParams
  hf : HandFinger
  nameOf : Button → Py String
  getRow : Button → Py Nat

/-- `_strokePathHand` (`carpalx.py:291-301`). -/
def strokePathHand (h0 h1 h2 : Direction) : Nat :=
  let same := h0 = h1 ∧ h1 = h2
  let alternating := h0 = h2 ∧ h0 ≠ h1
  if alternating then 1 else if same then 2 else 0

/-- `max (map (abs, d)) <= 1` (`carpalx.py:317`). -/
def maxAbs (a b c : Int) : Int := max (max |a| |b|) |c|

/-- `_strokePathRow` (`carpalx.py:303-334`). -/
def strokePathRow (r0 r1 r2 : Int) : Py Nat :=
  let d0 := r0 - r1
  let d1 := r1 - r2
  let d2 := r0 - r2
  if d0 = 0 ∧ d1 = 0 then .ok 0
  else if (r0 = r1 ∧ r2 > r1) ∨ (r1 > r0 ∧ r1 = r2) then .ok 1
  else if (r0 = r1 ∧ r2 < r1) ∨ (r1 < r0 ∧ r1 = r2) then .ok 2
  else if maxAbs d0 d1 d2 ≤ 1 then .ok 3
  else if d0 < 0 ∧ d1 < 0 then .ok 4
  else if d0 > 0 ∧ d1 > 0 then .ok 6
  else if min d0 d1 < -1 then .ok 5
  else if max d0 d1 > 1 then .ok 7
  else .error .assertionError

/-- `int (f[1]) if f[0] == LEFT else 6+(5-f[1])` (`carpalx.py:338`). -/
def fingerNumber (f : Direction × Finger) : Int :=
  match f.1 with
  | .left => f.2.toNat
  | .right => 6 + (5 - (f.2.toNat : Int))

/-- `_strokePathFinger` (`carpalx.py:336-368`); `t` are the buttons. -/
def strokePathFinger (p0 p1 p2 : Direction × Finger) (t0 t1 t2 : Button) : Py Nat :=
  let f0 := fingerNumber p0
  let f1 := fingerNumber p1
  let f2 := fingerNumber p2
  let same := f0 = f1 ∧ f1 = f2
  let allDifferent := f0 ≠ f1 ∧ f1 ≠ f2 ∧ f0 ≠ f2
  let someDifferent := ¬ same ∧ ¬ allDifferent
  let keyRepeat := t0 = t1 ∨ t1 = t2 ∨ t0 = t2
  let monotonic := (f0 ≤ f1 ∧ f1 ≤ f2) ∨ (f0 ≥ f1 ∧ f1 ≥ f2)
  if same then (if keyRepeat then .ok 5 else .ok 7)
  else if (f0 > f2 ∧ f2 > f1) ∨ (f0 < f2 ∧ f2 < f1) then .ok 2
  else if allDifferent then (if monotonic then .ok 0 else .ok 3)
  else if someDifferent then
    (if monotonic then (if keyRepeat then .ok 1 else .ok 6) else .ok 4)
  else .error .assertionError

/-- `madd` (`carpalx.py:236-241`) of two triples. -/
def madd3 (a b : Rat × Rat × Rat) : Rat := 0 + a.1 * b.1 + a.2.1 * b.2.1 + a.2.2 * b.2.2

/-- `madd` (`carpalx.py:236-241`) of two quadruples. -/
def madd4 (a b : Rat × Rat × Rat × Rat) : Rat :=
  0 + a.1 * b.1 + a.2.1 * b.2.1 + a.2.2.1 * b.2.2.1 + a.2.2.2 * b.2.2.2

namespace CarpalxEnv

/-- `_strokePath` (`carpalx.py:370-377`). -/
def strokePath (e : CarpalxEnv) (t : Button × Button × Button) : Py (Rat × Rat × Rat) := do
  let f0 ← e.hf t.1
  let f1 ← e.hf t.2.1
  let f2 ← e.hf t.2.2
  let r0 ← e.getRow t.1
  let r1 ← e.getRow t.2.1
  let r2 ← e.getRow t.2.2
  let row ← strokePathRow r0 r1 r2
  let finger ← strokePathFinger f0 f1 f2 t.1 t.2.1 t.2.2
  .ok (strokePathHand f0.1 f1.1 f2.1, row, finger)

/-- `l[i]` of a list or tuple. -/
def index {α : Type} (l : List α) (i : Nat) : Py α :=
  match l[i]? with
  | some x => .ok x
  | none => .error .indexError

/-- `_penalty` (`carpalx.py:379-384`). -/
def penalty (e : CarpalxEnv) (key : Button) : Py Rat := do
  let pos ← e.hf key
  let row ← e.getRow key
  let pH ← e.params.pHand.getItem pos.1
  let pR ← index e.params.pRow row
  let pFs ← e.params.pFinger.getItem pos.1
  let pF ← pFs.getItem pos.2
  .ok (madd4 e.params.w0HRF (1, pH, pR, pF))

/-- `lambda x: bmap[x.name]` (`carpalx.py:411`). -/
def baseline (e : CarpalxEnv) (key : Button) : Py Rat := do
  let n ← e.nameOf key
  e.params.baselineEffort.getItem n

/-- One round of the loop `for comb in triad` (`carpalx.py:393-399`); `bs` are the buttons in the order in
which the combination is iterated. -/
def combEffort (e : CarpalxEnv) (f : Button → Py Rat) (bs : List Button) : Py Rat := do
  let perButton ← bs.mapM f
  let numKeys := perButton.length
  .ok (perButton.sum + (((numKeys : Int) - 1 : Int) : Rat) * e.params.k123S.2.2.2)

/-- `_baseEffort` (`carpalx.py:386-400`). -/
def baseEffort (e : CarpalxEnv) (iter : Comb → List Button) (f : Button → Py Rat) (t : Triad) : Py Rat := do
  let b0 ← e.combEffort f (iter t.1)
  let b1 ← e.combEffort f (iter t.2.1)
  let b2 ← e.combEffort f (iter t.2.2)
  let k := e.params.k123S
  .ok (k.1 * b0 * (1 + k.2.1 * b1 * (1 + k.2.2.1 * b2)))

/-- `product (*map (iter, triad))` (`carpalx.py:418`). -/
def singleTriads (iter : Comb → List Button) (t : Triad) : List (Button × Button × Button) :=
  (iter t.1).flatMap fun a => (iter t.2.1).flatMap fun b => (iter t.2.2).map fun c => (a, b, c)

/-- `min (s)` (`carpalx.py:419`). -/
def minimum : List Rat → Py Rat
  | [] => .error .valueError
  | x :: xs => .ok (xs.foldl min x)

/-- The stroke path part (`carpalx.py:417-419`). -/
def strokeEffort (e : CarpalxEnv) (iter : Comb → List Button) (t : Triad) : Py Rat := do
  let s ← (singleTriads iter t).mapM fun u => do
    let p ← e.strokePath u
    .ok (madd3 e.params.fHRF p)
  minimum s

/-- `_triadEffort` without the cache (`carpalx.py:408-421`). `iter` is the order in which
combinations are iterated. -/
def triadEffortBy (e : CarpalxEnv) (iter : Comb → List Button) (t : Triad) : Py Rat := do
  let b ← e.baseEffort iter e.baseline t
  let p ← e.baseEffort iter e.penalty t
  let s ← e.strokeEffort iter t
  .ok (madd3 e.params.kBPS (b, p, s))

/-- `_triadEffort` without the cache (`carpalx.py:408-421`). -/
def triadEffort (e : CarpalxEnv) (t : Triad) : Py Rat := e.triadEffortBy Comb.iter t

end CarpalxEnv

/-- `_cache` (`carpalx.py:250`). -/
abbrev Cache := Dict Triad Rat

/-- `_triadEffort` (`carpalx.py:402-423`): the value and the cache afterwards. -/
def CarpalxEnv.cachedEffort (e : CarpalxEnv) (c : Cache) (t : Triad) : Py Rat × Cache :=
  match c.get? t with
  | some v => (.ok v, c)
  | none =>
    match e.triadEffort t with
    | .ok v => (.ok v, c.set t v)
    | .error err => (.error err, c)

/-- A `Carpalx` object: what it looks things up in, which cache it refers to, `absEffort` and `N`
(`carpalx.py:244-251`). -/
structure Carpalx where
  env : CarpalxEnv
  cache : Nat
  absEffort : Rat
  N : Rat

/-- `effort` (`carpalx.py:284-289`). -/
def Carpalx.effort (c : Carpalx) : Rat := if c.N = 0 then 0 else c.absEffort / c.N

/-- `assert keyboard.getRow (keyboard[name]) == row` (`carpalx.py:255-258`). -/
def runtimeTest (t : InternTable) (kb : PhysicalKeyboard) (name : String) (row : Nat) : Py Unit := do
  let b ← kb.find t name
  let r ← kb.getRow b.i
  if r = row then .ok () else .error .assertionError

/-- The runtime tests of `Carpalx.__init__` (`carpalx.py:253-258`). -/
def runtimeTests (t : InternTable) (kb : PhysicalKeyboard) : Py Unit := do
  runtimeTest t kb "Bl1" 0
  runtimeTest t kb "Cl1" 1
  runtimeTest t kb "Dl1" 2
  runtimeTest t kb "El1" 3

/-- All objects and all caches. -/
structure CarpalxWorld where
  objs : List Carpalx
  caches : List Cache

/-- Operations on the objects, which are named by their position. -/
inductive CarpalxOp where
  /-- `Carpalx (params, writer)`. -/
  | new (env : CarpalxEnv)
  | copy (i : Nat)
  | add (i : Nat) (t : Triad) (n : Rat)
  | remove (i : Nat) (t : Triad) (n : Rat)
  | addAll (i : Nat) (ts : Dict Triad Rat)
  | reset (i : Nat)

namespace CarpalxWorld

/-- `addTriad` (`carpalx.py:260-262`) of `n`, and `removeTriad` (`264-266`) for negative sign: the effort is
computed first, so that nothing has changed if that fails. -/
def addTriad (w : CarpalxWorld) (i : Nat) (t : Triad) (n : Rat) : CarpalxWorld × Option PyErr :=
  match w.objs[i]? with
  | none => (w, none)
  | some o =>
    match w.caches[o.cache]? with
    | none => (w, none)
    | some c =>
      match o.env.cachedEffort c t with
      | (.error err, c') => (⟨w.objs, w.caches.set o.cache c'⟩, some err)
      | (.ok v, c') =>
        (⟨w.objs.set i { o with absEffort := o.absEffort + n * v, N := o.N + n }, w.caches.set o.cache c'⟩, none)

/-- `removeTriad` (`carpalx.py:264-266`). -/
def removeTriad (w : CarpalxWorld) (i : Nat) (t : Triad) (n : Rat) : CarpalxWorld × Option PyErr :=
  match w.objs[i]? with
  | none => (w, none)
  | some o =>
    match w.caches[o.cache]? with
    | none => (w, none)
    | some c =>
      match o.env.cachedEffort c t with
      | (.error err, c') => (⟨w.objs, w.caches.set o.cache c'⟩, some err)
      | (.ok v, c') =>
        (⟨w.objs.set i { o with absEffort := o.absEffort - n * v, N := o.N - n }, w.caches.set o.cache c'⟩, none)

/-- `addTriads` (`carpalx.py:268-270`): stops at the first exception. -/
def addTriads (w : CarpalxWorld) (i : Nat) : Dict Triad Rat → CarpalxWorld × Option PyErr
  | [] => (w, none)
  | (t, n) :: ts =>
    match w.addTriad i t n with
    | (w', some err) => (w', some err)
    | (w', none) => addTriads w' i ts

/-- One operation; a caught exception leaves what has happened until then. Operations on objects that do not
exist do nothing. -/
def step (w : CarpalxWorld) : CarpalxOp → CarpalxWorld × Option PyErr
  | .new env => (⟨w.objs ++ [⟨env, w.caches.length, 0, 0⟩], w.caches ++ [[]]⟩, none)
  -- the fresh cache of the copy is replaced by the original's (`carpalx.py:276-282`)
  | .copy i =>
    match w.objs[i]? with
    | none => (w, none)
    | some o => (⟨w.objs ++ [⟨o.env, o.cache, o.absEffort, o.N⟩], w.caches⟩, none)
  | .add i t n => w.addTriad i t n
  | .remove i t n => w.removeTriad i t n
  | .addAll i ts => w.addTriads i ts
  | .reset i =>
    match w.objs[i]? with
    | none => (w, none)
    | some o => (⟨w.objs.set i { o with absEffort := 0, N := 0 }, w.caches⟩, none)

/-- Operations one after the other, and their exceptions. -/
def run (w : CarpalxWorld) : List CarpalxOp → CarpalxWorld × List (Option PyErr)
  | [] => (w, [])
  | op :: ops =>
    let r := w.step op
    let rest := run r.1 ops
    (rest.1, r.2 :: rest.2)

end CarpalxWorld
end Lulua
