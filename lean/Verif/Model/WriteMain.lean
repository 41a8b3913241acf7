import Verif.Model.Benchmark
import Verif.Model.Filters
import Verif.Model.RenderMain
import Verif.Data.Tables

/-!
# `lulua-write` as a whole: from the words of the command line to the pickles

The processes are those of `Model/Pool.lean`. The statistics of a text are made for the keyboard of the layout (`text.py:358`), those
they are added to for `ibmpc105` (`text.py:334-335`); both are the latter here, which is right if the layout is for this keyboard.
What happens after `write` has returned is not considered: the process waits for the threads of its queues.
-/

namespace Lulua

/-- What `lulua-write` depends on besides the disk and standard input. -/
structure WriteWorld extends LoadWorld where
  filters : FilterWorld
  letter : Char → Bool

/-- What `write` has found out before it starts processes (`text.py:403-417`), and what a worker starts with, or the exception it
puts into the queue. -/
structure WritePlan where
  benchmark : Bool
  jobs : Nat
  filters : List FilterName
  setup : Py Setup

/-- The beginning of a worker (`text.py:334-335`): it has the intern table of the main process and loads the keyboard again. -/
def workerSetup (w : WriteWorld) (d : Disk) (t : InternTable) (L : KeyboardLayout) : Py Setup := do
  let (t', kb) ← (keyboardLoader { w.toLoadWorld with table := t } d).getitem "data/keyboards" "ibmpc105" false
  let fresh ← AllStats.init t' kb
  .ok ⟨getHandFinger Data.fingermap t', w.letter, L, fresh⟩

/-- `[filterAvail[x] for x in args.filter]` (`text.py:412`). -/
def argFilters : Option ArgVal → Py (List FilterName)
  | some (.texts fs) => fs.mapM fun f => filterAvail.getItem (String.ofList f)
  | _ => .error .typeError

/-- `range (args.jobs)` (`text.py:421`); there are no workers for negative numbers. -/
def argJobs : Option ArgVal → Py Nat
  | some (.int n) => .ok n.toNat
  | _ => .error .typeError

/-- `write` (`text.py:403-421`) up to the start of the workers. -/
def writePlan (w : WriteWorld) (d : Disk) (ns : Dict String ArgVal) : Py WritePlan := do
  let (t, _, L) ← loadNamed w.toLoadWorld d ns
  let fs ← argFilters (ns.get? "filter")
  let jobs ← argJobs (ns.get? "jobs")
  .ok ⟨ns.get? "benchmark" = some (.flag true), jobs, fs, workerSetup w d t L⟩

/-- The same from the command line. -/
def writeStart (w : WriteWorld) (d : Disk) (argv : List Text) : Except ArgStop (Py WritePlan) := do
  let ns ← (writeProgram w.args).start w.args argv
  .ok (writePlan w d ns)

/-- What has been written if the processes end in this state (`text.py:447-453`). Without workers nothing depends on `setup`. -/
def WritePlan.output (p : WritePlan) (w : WriteWorld) (final : Pool Text) : Py (List AllStats) :=
  if final.results = [] then .ok []
  else do
    let su ← p.setup
    let r : CorpusRun := ⟨[], w.filters.extract p.filters, p.jobs, final⟩
    if p.benchmark then r.benchOutput su.fresh else r.output su

end Lulua
