import Verif.Model.Combination
import Mathlib.Data.Finset.Basic
import Mathlib.Data.Finset.Card

/-! # What combinations are expected to be as keys of dictionaries -/

namespace Lulua.Spec.Combination

open Lulua.Combination

/-- The two sets a combination stands for. -/
def Obj.sets (c : Obj) : Finset Button × Finset Button := (c.modifier.toFinset, c.buttons.toFinset)

/-- Python's promise about hashes: equal values have equal hashes. -/
def Respects (H : PairHash) : Prop :=
  ∀ m m' b b' : List Button, m.toFinset = m'.toFinset → b.toFinset = b'.toFinset → H m b = H m' b'

/-- An order of iteration loses and invents nothing. -/
def IsOrder (order : List Button → List Button) : Prop := ∀ l, (order l).Perm l

/-- Combinations a process can have, `H p` being the pair hash of process `p`: it makes them itself, or it loads those of
another process (or its own). -/
inductive Has {P : Type} (H : P → PairHash) : P → Obj → Prop
  | made (p : P) (modifier buttons : List Button) : modifier.Nodup → buttons.Nodup → Has H p (Obj.init (H p) modifier buttons)
  | loaded (p q : P) (order : List Button → List Button) (c : Obj) :
      Has H q c → IsOrder order → Has H p (reload (H p) order c)

/-- The value last assigned to the two sets. -/
def lastFor {α : Type} (s : Finset Button × Finset Button) : List (Obj × α) → Option α
  | [] => none
  | a :: as => (lastFor s as).or (if Obj.sets a.1 = s then some a.2 else none)

/-- The combinations that are not equal to one before them, in order. -/
def firsts : List Obj → List Obj → List Obj
  | seen, [] => seen
  | seen, k :: ks => firsts (if ∃ x ∈ seen, Obj.sets x = Obj.sets k then seen else seen ++ [k]) ks

end Lulua.Spec.Combination
