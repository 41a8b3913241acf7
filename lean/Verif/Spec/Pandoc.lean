import Verif.Model.Pandoc

/-! # What a program makes of its input, without pipes -/

namespace Lulua.Spec.Pandoc

open Lulua.Pandoc

variable {σ β : Type}

/-- In state `s`, with this input to come and then its end, the program writes `out` and exits with `code`, in `n` steps. -/
inductive Runs (act : σ → Act σ β) : Nat → σ → List β → List β → Nat → Prop where
  | exit {s inp code} : act s = .exit code → Runs act 1 s inp [] code
  | write {n s b next inp out code} : act s = .write b next → Runs act n next inp out code → Runs act (n + 1) s inp (b :: out) code
  | read {n s next b inp out code} : act s = .read next → Runs act n (next (some b)) inp out code → Runs act (n + 1) s (b :: inp) out code
  | eof {n s next out code} : act s = .read next → Runs act n (next none) [] out code → Runs act (n + 1) s [] out code

/-- The program reads all of its input before it does anything else. -/
def ReadsFirst (act : σ → Act σ β) (s : σ) : Prop :=
  ∃ R : σ → Prop, R s ∧ ∀ x, R x → ∃ next, act x = .read next ∧ ∀ b, R (next (some b))

/-- The filter has ended. -/
def Ended (s : State σ β) : Prop :=
  (∃ t, s.parent = .yielded t) ∨ s.parent = .rejected ∨ s.parent = .brokenPipe

/-- What can happen. -/
def Reachable (act : σ → Act σ β) (roomIn roomOut : Nat) (text : List β) (start : σ) (s : State σ β) : Prop :=
  ∃ n, Steps act roomIn roomOut n (State.init text start) s

/-- Nothing can happen any more. -/
def Stuck (act : σ → Act σ β) (roomIn roomOut : Nat) (s : State σ β) : Prop := ∀ t, ¬ Step act roomIn roomOut s t

end Lulua.Spec.Pandoc
