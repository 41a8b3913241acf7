import Verif.Model.Pool

/-!
# The end of the process of `write` (`lulua/text.py`)

When `write` has returned or raised an exception, the interpreter still has to leave. What it has put into `inq`
(`text.py:437,448`) is written into a pipe by a thread, and `multiprocessing` waits for this thread (its documentation: “a
process that has put items in a queue will wait before terminating until all the buffered items are fed by the feeder thread to the
underlying pipe”; `write` does not call `cancel_join_thread`). The workers are daemons (`text.py:424`) and have been ended then, so
nobody reads. That this is how `multiprocessing` works is not proved here, it is what `CanLeave` says.
-/

namespace Lulua

variable {ι : Type}

/-- The process can leave: what has been put and not been read fits into the pipe, which has room for `room` bytes. `size` is how
many bytes an entry has. -/
def CanLeave (room : Nat) (size : Option ι → Nat) (s : Pool ι) : Prop := (s.inq.map size).sum ≤ room

instance (room : Nat) (size : Option ι → Nat) (s : Pool ι) : Decidable (CanLeave room size s) :=
  inferInstanceAs (Decidable (_ ≤ _))

end Lulua
