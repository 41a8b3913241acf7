import Verif.Model.Carpalx

/-!
# Specification vocabulary for the effort model

The classes are those of the carpalx model as listed in the comments of `carpalx.py:303-368`.
-/

namespace Lulua.Spec
open Lulua

/-- Rows are numbered from top to bottom. Not monotonic: up and down, or down and up. -/
def ZigZag (r0 r1 r2 : Int) : Prop := (r0 < r1 ∧ r2 < r1) ∨ (r1 < r0 ∧ r1 < r2)

/-- The row classes. -/
def RowClass : Nat → Int → Int → Int → Prop
  -- same row
  | 0, r0, r1, r2 => r0 = r1 ∧ r1 = r2
  -- downward progression, with repetition
  | 1, r0, r1, r2 => (r0 = r1 ∧ r1 < r2) ∨ (r0 < r1 ∧ r1 = r2)
  -- upward progression, with repetition
  | 2, r0, r1, r2 => (r0 = r1 ∧ r2 < r1) ∨ (r1 < r0 ∧ r1 = r2)
  -- some different, not monotonic, max row change 1
  | 3, r0, r1, r2 => ZigZag r0 r1 r2 ∧ (r1 = r0 + 1 ∨ r0 = r1 + 1) ∧ (r2 = r1 + 1 ∨ r1 = r2 + 1)
  -- downward progression
  | 4, r0, r1, r2 => r0 < r1 ∧ r1 < r2
  -- some different, not monotonic, a downward change by more than one
  | 5, r0, r1, r2 => ZigZag r0 r1 r2 ∧ (r0 + 1 < r1 ∨ r1 + 1 < r2)
  -- upward progression
  | 6, r0, r1, r2 => r2 < r1 ∧ r1 < r0
  -- some different, not monotonic, no downward but an upward change by more than one
  | 7, r0, r1, r2 => ZigZag r0 r1 r2 ∧ (r1 ≤ r0 + 1 ∧ r2 ≤ r1 + 1) ∧ (r1 + 1 < r0 ∨ r2 + 1 < r1)
  | _, _, _, _ => False

/-- The ten fingers from left to right. -/
def fingersLeftToRight : List (Direction × Finger) :=
  [(.left, .little), (.left, .ring), (.left, .middle), (.left, .index), (.left, .thumb),
   (.right, .thumb), (.right, .index), (.right, .middle), (.right, .ring), (.right, .little)]

/-- Where a finger is. -/
def position (f : Direction × Finger) : Nat := fingersLeftToRight.idxOf f

/-- The finger classes, for the positions of the fingers and whether a key is repeated. -/
def FingerClass : Nat → Nat → Nat → Nat → Prop → Prop
  -- all different, monotonic
  | 0, p0, p1, p2, _ => (p0 < p1 ∧ p1 < p2) ∨ (p2 < p1 ∧ p1 < p0)
  -- some different, key repeat, monotonic
  | 1, p0, p1, p2, rep => ((p0 = p1 ∧ p1 ≠ p2) ∨ (p0 ≠ p1 ∧ p1 = p2)) ∧ rep
  -- rolling: the last one lies between the others
  | 2, p0, p1, p2, _ => (p0 < p2 ∧ p2 < p1) ∨ (p1 < p2 ∧ p2 < p0)
  -- all different, not monotonic (nor rolling)
  | 3, p0, p1, p2, _ => (p1 < p0 ∧ p0 < p2) ∨ (p2 < p0 ∧ p0 < p1)
  -- some different, not monotonic
  | 4, p0, p1, p2, _ => p0 = p2 ∧ p0 ≠ p1
  -- same, key repeat
  | 5, p0, p1, p2, rep => p0 = p1 ∧ p1 = p2 ∧ rep
  -- some different, no key repeat, monotonic
  | 6, p0, p1, p2, rep => ((p0 = p1 ∧ p1 ≠ p2) ∨ (p0 ≠ p1 ∧ p1 = p2)) ∧ ¬ rep
  -- same, no key repeat
  | 7, p0, p1, p2, rep => p0 = p1 ∧ p1 = p2 ∧ ¬ rep
  | _, _, _, _, _ => False

/-- Some button occurs twice. -/
def KeyRepeat (t0 t1 t2 : Button) : Prop := ¬ [t0, t1, t2].Nodup

/-- The other hand. -/
def otherHand : Direction → Direction
  | .left => .right
  | .right => .left

def mirror (f : Direction × Finger) : Direction × Finger := (otherHand f.1, f.2)

/-- An object without cache. -/
structure Plain where
  env : CarpalxEnv
  absEffort : Rat
  N : Rat

/-- Forget which cache is used. -/
def plainOf (o : Carpalx) : Plain := ⟨o.env, o.absEffort, o.N⟩

/-- Adding a triad with (possibly negative) weight. -/
def Plain.add (o : Plain) (t : Triad) (n : Rat) : Plain × Option PyErr :=
  match o.env.triadEffort t with
  | .ok v => (⟨o.env, o.absEffort + n * v, o.N + n⟩, none)
  | .error e => (o, some e)

def Plain.addAll (o : Plain) : Dict Triad Rat → Plain × Option PyErr
  | [] => (o, none)
  | (t, n) :: ts =>
    match o.add t n with
    | (o', some e) => (o', some e)
    | (o', none) => o'.addAll ts

/-- Apply to the `i`th object, if there is one. -/
def onObj (os : List Plain) (i : Nat) (f : Plain → Plain × Option PyErr) : List Plain × Option PyErr :=
  match os[i]? with
  | none => (os, none)
  | some o => (os.set i (f o).1, (f o).2)

/-- What the operations mean without a cache. -/
def plainStep (os : List Plain) : CarpalxOp → List Plain × Option PyErr
  | .new env => (os ++ [⟨env, 0, 0⟩], none)
  | .copy i =>
    match os[i]? with
    | none => (os, none)
    | some o => (os ++ [o], none)
  | .add i t n => onObj os i fun o => o.add t n
  | .remove i t n => onObj os i fun o => o.add t (-n)
  | .addAll i ts => onObj os i fun o => o.addAll ts
  | .reset i => onObj os i fun o => (⟨o.env, 0, 0⟩, none)

def plainRun (os : List Plain) : List CarpalxOp → List Plain × List (Option PyErr)
  | [] => (os, [])
  | op :: ops => ((plainRun (plainStep os op).1 ops).1, (plainStep os op).2 :: (plainRun (plainStep os op).1 ops).2)

/-- An addition (positive) or removal (negative) of a triad with a weight. -/
inductive Change where
  | add (t : Triad) (n : Rat)
  | remove (t : Triad) (n : Rat)

def Change.triad : Change → Triad
  | .add t _ => t
  | .remove t _ => t

/-- Its contribution to the weight. -/
def Change.weight : Change → Rat
  | .add _ n => n
  | .remove _ n => -n

def Change.op (i : Nat) : Change → CarpalxOp
  | .add t n => .add i t n
  | .remove t n => .remove i t n

/-- Net weight of a triad. -/
def net (cs : List Change) (t : Triad) : Rat := ((cs.filter fun c => c.triad = t).map Change.weight).sum

/-- The triads mentioned, each once. -/
def triadsOf (cs : List Change) : List Triad := (cs.map Change.triad).dedup

/-- All parameters are non-negative. -/
structure NonNeg (p : ModelParams) : Prop where
  kBPS : 0 ≤ p.kBPS.1 ∧ 0 ≤ p.kBPS.2.1 ∧ 0 ≤ p.kBPS.2.2
  k123S : 0 ≤ p.k123S.1 ∧ 0 ≤ p.k123S.2.1 ∧ 0 ≤ p.k123S.2.2.1 ∧ 0 ≤ p.k123S.2.2.2
  w0HRF : 0 ≤ p.w0HRF.1 ∧ 0 ≤ p.w0HRF.2.1 ∧ 0 ≤ p.w0HRF.2.2.1 ∧ 0 ≤ p.w0HRF.2.2.2
  pHand : ∀ x ∈ p.pHand, 0 ≤ x.2
  pRow : ∀ x ∈ p.pRow, 0 ≤ x
  pFinger : ∀ x ∈ p.pFinger, ∀ y ∈ x.2, 0 ≤ y.2
  fHRF : 0 ≤ p.fHRF.1 ∧ 0 ≤ p.fHRF.2.1 ∧ 0 ≤ p.fHRF.2.2
  baselineEffort : ∀ x ∈ p.baselineEffort, 0 ≤ x.2

/-- Everything a button needs to be rated is there. -/
def Rateable (e : CarpalxEnv) (b : Button) : Prop :=
  (∃ v, e.baseline b = .ok v) ∧ (∃ v, e.penalty b = .ok v)

end Lulua.Spec
