import Verif.Model.Hands

/-!
# Specification: fingers and hands
-/

namespace Lulua.Spec
open Lulua

/-- What a program does with fingers and hands. -/
inductive HandOp
  | finger (k : Finger)
  | hand (p : Direction) (fs : List Nat)
  | add (h f : Nat)

/-- The objects after an operation. -/
def HandOp.run (s : HandHeap) : HandOp → HandHeap
  | .finger k => s.newFinger k
  | .hand p fs => s.newHand p fs
  | .add h f => s.addFinger h f

/-- The numbers of the fingers created. -/
def createdFingers (ops : List HandOp) : List Finger := ops.filterMap fun o => match o with | .finger k => some k | _ => none

/-- Where the hands created are. -/
def createdHands (ops : List HandOp) : List Direction := ops.filterMap fun o => match o with | .hand p _ => some p | _ => none

/-- Which fingers were added to which hands, in order. -/
inductive Added : List HandOp → List (Nat × Nat) → Prop
  | start : Added [] []
  | finger {ops as} (k : Finger) : Added ops as → Added (ops ++ [.finger k]) as
  | hand {ops as} (p : Direction) (fs : List Nat) : Added ops as → (∀ f ∈ fs, f < (createdFingers ops).length) →
    Added (ops ++ [.hand p fs]) (as ++ fs.map fun f => ((createdHands ops).length, f))
  | add {ops as} (h f : Nat) : Added ops as → h < (createdHands ops).length → f < (createdFingers ops).length →
    Added (ops ++ [.add h f]) (as ++ [(h, f)])

/-- The fingers of a hand, the first one added first. -/
def fingersOf (as : List (Nat × Nat)) (h : Nat) : List Nat := (as.filter fun a => a.1 = h).map Prod.snd

/-- The hand a finger was added to last. -/
def lastHandOf (as : List (Nat × Nat)) (f : Nat) : Option Nat := ((as.filter fun a => a.2 = f).map Prod.fst).getLast?

end Lulua.Spec
