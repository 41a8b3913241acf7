import Verif.Model.Pool

/-!
# Workers that fail before they take an item

`writeWorker` loads `ibmpc105` and creates statistics inside the same `try` as the loop (`lulua/text.py:333-335`), whatever
keyboard was given with `-k`. If that raises an exception, it is put into `outq` and the worker ends
(`lulua/text.py:375-377`) without taking anything from `inq`. `workerSetup` in `Model/WriteMain.lean` has what is raised when;
it is the same for all workers, as all of them read the same file.
-/

namespace Lulua

variable {ι : Type}

/-- After starting workers all of which raise the exception `e` at once (`text.py:333-335,375-377,420-433`). -/
def Pool.initFailed (jobs : Nat) (items : List ι) (e : ι) : Pool ι :=
  ⟨.feeding items, [], [], List.replicate jobs (.finishing (.exc e)), []⟩

end Lulua
