import Verif.Model.Pool

/-!
# Standard input that cannot be read to its end

`for l in sys.stdin` (`lulua/text.py:436`) decodes its input and may raise an exception (`UnicodeDecodeError`, `OSError`) instead of
ending. Only keyboard interrupts are caught there (`text.py:442`), so it leaves `write`. `items` are the lines there are before.
-/

namespace Lulua

variable {ι : Type}

/-- `write` with input that breaks off: still running, or left by the exception. -/
inductive Broken (ι : Type) where
  | running (s : Pool ι)
  | left (s : Pool ι)

/-- One step: those of `Pool.Step`, but instead of the end of the input (`feedEnd`) there is the exception. -/
inductive Broken.Step (jobs : Nat) (fails : ι → Prop) : Broken ι → Broken ι → Prop where
  | step {s t : Pool ι} : Pool.Step jobs fails False False s t → (s.main = .feeding [] → t.main = .feeding []) →
      Step jobs fails (.running s) (.running t)
  | error {s : Pool ι} : s.main = .feeding [] → Step jobs fails (.running s) (.left s)

/-- `n` steps. -/
inductive Broken.Steps (jobs : Nat) (fails : ι → Prop) : Nat → Broken ι → Broken ι → Prop where
  | refl (s) : Steps jobs fails 0 s s
  | tail {n s t u} : Steps jobs fails n s t → Broken.Step jobs fails t u → Steps jobs fails (n + 1) s u

end Lulua
