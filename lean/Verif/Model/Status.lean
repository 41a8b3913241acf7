import Verif.Model.Pool

/-!
# Model of the progress display: `statusq`, `statusWorker` and the end of `write` (`lulua/text.py:369,379-388,417,429-433,456-461`)

The system of `Model/Pool.lean` with the third bounded queue and the process that reads it. A worker that has processed
an item puts the number of its texts into `statusq` before it goes on; this is the moment an item counts as processed.

Simplifications: the time-outs of `statusq.get` are left out (they only redraw the bar); drawing does not fail, but the
process may end at any time (`dies`). The `None` of the main process may overtake numbers put by workers, because every
process has its own feeder thread: it is inserted anywhere.
-/

namespace Lulua

variable {ι : Type}

/-- The process that shows progress (`text.py:379-388`). -/
inductive SState where
  | running
  | exited
  | dead
  deriving DecidableEq, Repr

/-- The end of the main process: before `statusq.put (None)` (`text.py:456`), waiting for the other processes
(`text.py:457-461`), returned (`text.py:463`). -/
inductive Phase where
  | working
  | joining
  | returned
  deriving DecidableEq, Repr

structure Display (ι : Type) where
  pool : Pool ι
  statusq : List (Option Nat)
  bar : Nat
  status : SState
  phase : Phase
  deriving DecidableEq, Repr

/-- All processes have been started (`text.py:420-433`). -/
def Display.init (jobs : Nat) (items : List ι) : Display ι := ⟨Pool.init jobs items, [], 0, .running, .working⟩

/-- Between these states a worker has processed the item (`text.py:343-370`). -/
def Pool.Processes (x : ι) (p q : Pool ι) : Prop :=
  ∃ m inq outq a b l rs, p = ⟨m, inq, outq, a ++ .busy l x :: b, rs⟩ ∧ q = ⟨m, inq, outq, a ++ .idle (l ++ [x]) :: b, rs⟩

/-- One step; `texts` is the number of texts of an item, `dies` whether the end of the status process is considered. -/
inductive Display.Step (jobs : Nat) (texts : ι → Nat) (fails : ι → Prop) (ints kills dies : Prop) :
    Display ι → Display ι → Prop where
  /-- Anything but the processing of an item. -/
  | pool {p q sq b st ph} : Pool.Step jobs fails ints kills p q → (∀ x, ¬ Pool.Processes x p q) →
      Step jobs texts fails ints kills dies ⟨p, sq, b, st, ph⟩ ⟨q, sq, b, st, ph⟩
  /-- `statusq.put (i)` (`text.py:369`), blocks while the queue holds `jobs+1` (`text.py:417`). -/
  | item {p q x sq b st ph} : Pool.Step jobs fails ints kills p q → Pool.Processes x p q → sq.length < jobs + 1 →
      Step jobs texts fails ints kills dies ⟨p, sq, b, st, ph⟩ ⟨q, sq ++ [some (texts x)], b, st, ph⟩
  /-- `bar.update (n=num)` (`text.py:383-386`). -/
  | update {p n sq b ph} :
      Step jobs texts fails ints kills dies ⟨p, some n :: sq, b, .running, ph⟩ ⟨p, sq, b + n, .running, ph⟩
  /-- `num is None` (`text.py:384-385`). -/
  | exit {p sq b ph} :
      Step jobs texts fails ints kills dies ⟨p, none :: sq, b, .running, ph⟩ ⟨p, sq, b, .exited, ph⟩
  /-- The process ends by an exception or a signal. -/
  | die {p sq b ph} : dies →
      Step jobs texts fails ints kills dies ⟨p, sq, b, .running, ph⟩ ⟨p, sq, b, .dead, ph⟩
  /-- `statusq.put (None)` (`text.py:456`). -/
  | stop {p sq sq' b st} : p.main = .done → (sq ++ sq').length < jobs + 1 →
      Step jobs texts fails ints kills dies ⟨p, sq ++ sq', b, st, .working⟩ ⟨p, sq ++ none :: sq', b, st, .joining⟩
  /-- `statusp.join ()`, `w.join ()` (`text.py:457-463`). -/
  | join {p sq b st} : st ≠ .running → (∀ w ∈ p.workers, w = .exited ∨ w = .killed) →
      Step jobs texts fails ints kills dies ⟨p, sq, b, st, .joining⟩ ⟨p, sq, b, st, .returned⟩

/-- `n` steps. -/
inductive Display.Steps (jobs : Nat) (texts : ι → Nat) (fails : ι → Prop) (ints kills dies : Prop) :
    Nat → Display ι → Display ι → Prop where
  | refl (s) : Steps jobs texts fails ints kills dies 0 s s
  | tail {n s t u} : Steps jobs texts fails ints kills dies n s t → Display.Step jobs texts fails ints kills dies t u →
      Steps jobs texts fails ints kills dies (n + 1) s u

end Lulua
