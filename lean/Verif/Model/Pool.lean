import Verif.Model.Text

/-!
# Model of the worker pool: `write` and `writeWorker` (`lulua/text.py:332-463`) as a transition system

The main process and `jobs` workers communicate through the bounded queues `inq` and `outq`. One step
is one queue operation or the processing of one item; all interleavings are possible. What an item
yields is not of interest here, only whether it raises an exception (`fails`); a worker remembers the
items it has processed, which determine its statistics (`writeWorker` in `Model/Text.lean`).

Simplifications: the status queue and its process are left out here, see `Model/Status.lean`;
items are transferred in order (multiprocessing queues are FIFO) but `outq.empty ()` may still be true after another process has put something (the transfer is asynchronous); pickling and
process start do not fail; a keyboard interrupt is considered only while reading input (where it is
handled), a killed worker at any time.
-/

namespace Lulua

/-- What a worker puts into `outq` (`text.py:371-377`): its statistics (or `None`), given by the items it
processed, or the exception of an item. -/
inductive Res (ι : Type) where
  | ok (items : List ι)
  | exc (item : ι)
  deriving DecidableEq, Repr

/-- A worker (`text.py:332-377`): waiting for an item, processing one, about to put its result, gone,
or killed from outside. -/
inductive WState (ι : Type) where
  | idle (done : List ι)
  | busy (done : List ι) (item : ι)
  | finishing (r : Res ι)
  | exited
  | killed
  deriving DecidableEq, Repr

/-- The main process: about to read and put a line (`text.py:436-437`), about to check `outq`
(`text.py:440`), about to put a `None` with `n` workers to go (`text.py:447-448`), waiting for a result
(`text.py:449`), past the loop, or an exception raised. -/
inductive MState (ι : Type) where
  | feeding (todo : List ι)
  | checking (todo : List ι)
  | stopPut (n : Nat)
  | stopGet (n : Nat)
  | done
  | raised (item : ι)
  | assertion
  deriving DecidableEq, Repr

/-- All processes and queues; `results` is what was written to standard output. -/
structure Pool (ι : Type) where
  main : MState ι
  inq : List (Option ι)
  outq : List (Res ι)
  workers : List (WState ι)
  results : List (List ι)
  deriving DecidableEq, Repr

variable {ι : Type}

/-- After starting the workers (`text.py:420-433`). -/
def Pool.init (jobs : Nat) (items : List ι) : Pool ι :=
  ⟨.feeding items, [], [], List.replicate jobs (.idle []), []⟩

/-- One step. `ints` and `kills` say whether interrupts and killed workers are considered. -/
inductive Pool.Step (jobs : Nat) (fails : ι → Prop) (ints kills : Prop) : Pool ι → Pool ι → Prop where
  /-- `inq.put (l)` (`text.py:437`), blocks while the queue holds `jobs*2` (`text.py:415`);
  `Queue (0)` is unbounded. -/
  | feed {x xs inq outq ws rs} : (jobs = 0 ∨ inq.length < jobs * 2) →
      Step jobs fails ints kills ⟨.feeding (x :: xs), inq, outq, ws, rs⟩ ⟨.checking xs, inq ++ [some x], outq, ws, rs⟩
  /-- End of standard input (`text.py:436`). -/
  | feedEnd {inq outq ws rs} :
      Step jobs fails ints kills ⟨.feeding [], inq, outq, ws, rs⟩ ⟨.stopPut jobs, inq, outq, ws, rs⟩
  /-- `outq.empty ()` (`text.py:440`), possibly not up to date. -/
  | checkEmpty {xs inq outq ws rs} :
      Step jobs fails ints kills ⟨.checking xs, inq, outq, ws, rs⟩ ⟨.feeding xs, inq, outq, ws, rs⟩
  /-- `not outq.empty ()`: break (`text.py:440-441`). -/
  | checkFull {xs inq outq ws rs} : outq ≠ [] →
      Step jobs fails ints kills ⟨.checking xs, inq, outq, ws, rs⟩ ⟨.stopPut jobs, inq, outq, ws, rs⟩
  /-- `inq.put (None)` (`text.py:448`). -/
  | putNone {n inq outq ws rs} : (jobs = 0 ∨ inq.length < jobs * 2) →
      Step jobs fails ints kills ⟨.stopPut (n + 1), inq, outq, ws, rs⟩ ⟨.stopGet (n + 1), inq ++ [none], outq, ws, rs⟩
  /-- `outq.get ()` returns statistics or `None` (`text.py:449-453`). -/
  | getOk {n inq l outq ws rs} :
      Step jobs fails ints kills ⟨.stopGet (n + 1), inq, .ok l :: outq, ws, rs⟩ ⟨.stopPut n, inq, outq, ws, rs ++ [l]⟩
  /-- `outq.get ()` returns an exception, which is raised (`text.py:450-451`). -/
  | getExc {n inq x outq ws rs} :
      Step jobs fails ints kills ⟨.stopGet (n + 1), inq, .exc x :: outq, ws, rs⟩ ⟨.raised x, inq, outq, ws, rs⟩
  /-- `assert outq.empty ()` succeeds (`text.py:454`), possibly because it is not up to date. -/
  | finish {inq outq ws rs} :
      Step jobs fails ints kills ⟨.stopPut 0, inq, outq, ws, rs⟩ ⟨.done, inq, outq, ws, rs⟩
  /-- `assert outq.empty ()` fails (`text.py:454`). -/
  | assertFail {inq outq ws rs} : outq ≠ [] →
      Step jobs fails ints kills ⟨.stopPut 0, inq, outq, ws, rs⟩ ⟨.assertion, inq, outq, ws, rs⟩
  /-- A worker gets an item (`text.py:339`). -/
  | take {m x inq outq a b l rs} :
      Step jobs fails ints kills ⟨m, some x :: inq, outq, a ++ .idle l :: b, rs⟩ ⟨m, inq, outq, a ++ .busy l x :: b, rs⟩
  /-- A worker has processed its item (`text.py:343-370`). -/
  | work {m x inq outq a b l rs} : ¬ fails x →
      Step jobs fails ints kills ⟨m, inq, outq, a ++ .busy l x :: b, rs⟩ ⟨m, inq, outq, a ++ .idle (l ++ [x]) :: b, rs⟩
  /-- An item raises an exception (`text.py:375-377`). -/
  | fail {m x inq outq a b l rs} : fails x →
      Step jobs fails ints kills ⟨m, inq, outq, a ++ .busy l x :: b, rs⟩ ⟨m, inq, outq, a ++ .finishing (.exc x) :: b, rs⟩
  /-- A worker gets `None` (`text.py:340-341`). -/
  | takeNone {m inq outq a b l rs} :
      Step jobs fails ints kills ⟨m, none :: inq, outq, a ++ .idle l :: b, rs⟩
        ⟨m, inq, outq, a ++ .finishing (.ok l) :: b, rs⟩
  /-- `outq.put (…)` (`text.py:371-377`), blocks while the queue holds `jobs+1` (`text.py:416`). -/
  | putResult {m inq outq a b r rs} : outq.length < jobs + 1 →
      Step jobs fails ints kills ⟨m, inq, outq, a ++ .finishing r :: b, rs⟩ ⟨m, inq, outq ++ [r], a ++ .exited :: b, rs⟩
  /-- A keyboard interrupt while reading input (`text.py:442-443`). -/
  | interrupt {xs inq outq ws rs} : ints →
      Step jobs fails ints kills ⟨.feeding xs, inq, outq, ws, rs⟩ ⟨.stopPut jobs, inq, outq, ws, rs⟩
  /-- A worker is killed: signal, out of memory, or a keyboard interrupt, which is not an `Exception`. -/
  | kill {m inq outq a b w rs} : kills → w ≠ .exited → w ≠ .killed →
      Step jobs fails ints kills ⟨m, inq, outq, a ++ w :: b, rs⟩ ⟨m, inq, outq, a ++ .killed :: b, rs⟩

/-- `n` steps. -/
inductive Pool.Steps (jobs : Nat) (fails : ι → Prop) (ints kills : Prop) : Nat → Pool ι → Pool ι → Prop where
  | refl (s) : Steps jobs fails ints kills 0 s s
  | tail {n s t u} : Steps jobs fails ints kills n s t → Pool.Step jobs fails ints kills t u → Steps jobs fails ints kills (n + 1) s u

end Lulua
