import Verif.Model.Pool

/-!
# Specification vocabulary for the worker pool
-/

namespace Lulua.Spec
open Lulua

variable {ι : Type}

/-- Reachable from the start. -/
def PoolReachable (jobs : Nat) (items : List ι) (fails : ι → Prop) (ints kills : Prop) (s : Pool ι) : Prop :=
  ∃ n, Pool.Steps jobs fails ints kills n (Pool.init jobs items) s

/-- The main process has returned or raised an exception. -/
def Ended (s : Pool ι) : Prop := s.main = .done ∨ (∃ x, s.main = .raised x) ∨ s.main = .assertion

/-- Nothing can happen any more. -/
def Stuck (jobs : Nat) (fails : ι → Prop) (ints kills : Prop) (s : Pool ι) : Prop :=
  ∀ t, ¬ Pool.Step jobs fails ints kills s t

end Lulua.Spec
