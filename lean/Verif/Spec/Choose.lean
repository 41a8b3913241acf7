import Verif.Model.Writer

/-!
# Specification vocabulary for choosing a combination
-/

namespace Lulua.Spec
open Lulua

/-- `hf` assigns hand `dir b` to each of the buttons `bs`. -/
def Assigned (hf : HandFinger) (dir : Button → Direction) (bs : List Button) : Prop :=
  ∀ b ∈ bs, ∃ f, hf b = .ok (dir b, f)

/-- By how many buttons one hand is used more than the other. -/
def handDiff (dir : Button → Direction) (bs : List Button) : Nat :=
  let l := bs.countP fun b => dir b = .left
  let r := bs.countP fun b => dir b = .right
  (l - r) + (r - l)

/-- The buttons of the previous press that count: its modifiers if it had any, else its key. -/
def prevButtons (p : Comb) : List Button := if p.modifier = [] then p.buttons else p.modifier

/-- What makes a combination costly, most important first: number of buttons, imbalance between
the hands, imbalance together with the previous press (the same for all if there is none). -/
def rank (dir : Button → Direction) (prev : Option Comb) (c : Comb) : Nat × Nat × Nat :=
  (c.modifier.length + c.buttons.length,
   handDiff dir (c.modifier ++ c.buttons),
   match prev with
   | some p => handDiff dir (prevButtons p ++ c.buttons)
   | none => 1)

/-- Strictly better, lexicographically. -/
def Better (a b : Nat × Nat × Nat) : Prop :=
  a.1 < b.1 ∨ (a.1 = b.1 ∧ (a.2.1 < b.2.1 ∨ (a.2.1 = b.2.1 ∧ a.2.2 < b.2.2)))

instance (a b : Nat × Nat × Nat) : Decidable (Better a b) := by unfold Better; infer_instance

/-- The number of buttons of the previous press that count. -/
def prevSize : Option Comb → Nat
  | some p => (prevButtons p).length
  | none => 0

/-- Few enough buttons for the packed score: fewer than 256 (nobody has that many fingers). -/
def Small (prev : Option Comb) (c : Comb) : Prop :=
  c.modifier.length + c.buttons.length < 256 ∧ prevSize prev + c.buttons.length < 256

/-- All buttons that matter when choosing `c` after `prev` have a hand. -/
def AllAssigned (hf : HandFinger) (dir : Button → Direction) (prev : Option Comb) (c : Comb) : Prop :=
  Assigned hf dir (c.modifier ++ c.buttons) ∧
    ∀ p, prev = some p → Assigned hf dir (prevButtons p)

/-- The last press among some events, or before them if there was none. -/
def previousPress (last : Option Comb) (evs : List Event) : Option Comb :=
  match (evs.filterMap fun | .typed _ c => some c | .skip _ => none).getLast? with
  | some c => some c
  | none => last

end Lulua.Spec
