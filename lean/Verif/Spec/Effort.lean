import Verif.Spec.Carpalx

/-!
# The effort of a triad as a formula

After Krzywinski's description of the carpalx model, with the extension of `carpalx.py` for keys pressed together.
-/

namespace Lulua.Spec
open Lulua

/-- The hand classes. -/
def HandClass : Nat → Direction → Direction → Direction → Prop
  -- both hands, not alternating
  | 0, h0, _, h2 => h0 ≠ h2
  -- alternating
  | 1, h0, h1, h2 => h0 = h2 ∧ h0 ≠ h1
  -- same hand
  | 2, h0, h1, h2 => h0 = h1 ∧ h1 = h2
  | _, _, _, _ => False

/-- `b_i`: the effort to reach a key. -/
def ReachCost (e : CarpalxEnv) (b : Button) (v : Rat) : Prop :=
  ∃ n, e.nameOf b = .ok n ∧ e.params.baselineEffort.get? n = some v

/-- `p_i = w_0 + w_hand P_hand + w_row P_row + w_finger P_finger`. -/
def PenaltyCost (e : CarpalxEnv) (b : Button) (v : Rat) : Prop :=
  ∃ hand finger row pHand pRow ofHand pFinger, e.hf b = .ok (hand, finger) ∧ e.getRow b = .ok row ∧
    e.params.pHand.get? hand = some pHand ∧ e.params.pRow[row]? = some pRow ∧
    e.params.pFinger.get? hand = some ofHand ∧ ofHand.get? finger = some pFinger ∧
    v = match e.params.w0HRF with
      | (w0, wHand, wRow, wFinger) => w0 + wHand * pHand + wRow * pRow + wFinger * pFinger

/-- Keys pressed together cost what each costs, and `k_S` for each one after the first. -/
def TogetherCost (e : CarpalxEnv) (cost : Button → Rat → Prop) (c : Comb) (v : Rat) : Prop :=
  ∃ vs : List Rat, List.Forall₂ cost (c.modifier ++ c.buttons) vs ∧
    v = match e.params.k123S with
      | (_, _, _, kS) => vs.sum + kS * ((c.modifier.length + c.buttons.length : Nat) - 1)

/-- `k_1 x_1 (1 + k_2 x_2 (1 + k_3 x_3))`. -/
def SequenceCost (e : CarpalxEnv) (cost : Button → Rat → Prop) (t : Triad) (v : Rat) : Prop :=
  ∃ x1 x2 x3, TogetherCost e cost t.1 x1 ∧ TogetherCost e cost t.2.1 x2 ∧ TogetherCost e cost t.2.2 x3 ∧
    v = match e.params.k123S with
      | (k1, k2, k3, _) => k1 * x1 * (1 + k2 * x2 * (1 + k3 * x3))

/-- `s = f_hand s_hand + f_row s_row + f_finger s_finger` of three keys. -/
def PathCost (e : CarpalxEnv) (b0 b1 b2 : Button) (v : Rat) : Prop :=
  ∃ (f0 f1 f2 : Direction × Finger) (r0 r1 r2 sHand sRow sFinger : Nat),
    e.hf b0 = .ok f0 ∧ e.hf b1 = .ok f1 ∧ e.hf b2 = .ok f2 ∧
    e.getRow b0 = .ok r0 ∧ e.getRow b1 = .ok r1 ∧ e.getRow b2 = .ok r2 ∧
    HandClass sHand f0.1 f1.1 f2.1 ∧ RowClass sRow r0 r1 r2 ∧
    FingerClass sFinger (position f0) (position f1) (position f2) (KeyRepeat b0 b1 b2) ∧
    v = match e.params.fHRF with
      | (fHand, fRow, fFinger) => fHand * sHand + fRow * sRow + fFinger * sFinger

/-- A key of the combination. -/
def KeyOf (c : Comb) (b : Button) : Prop := b ∈ c.modifier ∨ b ∈ c.buttons

/-- The cheapest path that takes one key of each of the combinations. -/
def CheapestPath (e : CarpalxEnv) (t : Triad) (v : Rat) : Prop :=
  (∃ b0 b1 b2, KeyOf t.1 b0 ∧ KeyOf t.2.1 b1 ∧ KeyOf t.2.2 b2 ∧ PathCost e b0 b1 b2 v) ∧
  ∀ b0 b1 b2, KeyOf t.1 b0 → KeyOf t.2.1 b1 → KeyOf t.2.2 b2 → ∃ w, PathCost e b0 b1 b2 w ∧ v ≤ w

/-- `e = k_b b + k_p p + k_s s`. -/
def TriadCost (e : CarpalxEnv) (t : Triad) (v : Rat) : Prop :=
  ∃ b p s, SequenceCost e (ReachCost e) t b ∧ SequenceCost e (PenaltyCost e) t p ∧ CheapestPath e t s ∧
    v = match e.params.kBPS with
      | (kB, kP, kS) => kB * b + kP * p + kS * s

end Lulua.Spec
