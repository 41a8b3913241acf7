import Verif.Model.Stats

/-!
# Model of `lulua/text.py`: character level, filter pipelines and the worker loop

HTML, XML, brotli and tar are in `Model/Formats.lean`, the worker pool in `Model/Pool.lean`.
-/

namespace Lulua

/-- `charMap` (`text.py:292-317`). -/
def charMap : Dict Char Text :=
  [ ('\ufefb', ['\u0644', '\u0627']),
    ('\u0623', ['\u0627', '\u0654']),
    ('\u0625', ['\u0627', '\u0655']),
    ('\u0626', ['\u064a', '\u0654']),
    ('\u0624', ['\u0648', '\u0654']),
    (',', ['\u060c']),
    ('\u0622', ['\u0627', '\u0653']),
    ('%', ['\u066a']),
    ('0', ['\u0660']),
    ('1', ['\u0661']),
    ('2', ['\u0662']),
    ('3', ['\u0663']),
    ('4', ['\u0664']),
    ('5', ['\u0665']),
    ('6', ['\u0666']),
    ('7', ['\u0667']),
    ('8', ['\u0668']),
    ('9', ['\u0669']),
    ('?', ['\u061f']),
    (';', ['\u061b']),
    ('\ufef9', ['\u0644', '\u0627', '\u0655']),
    ('\ufef7', ['\u0644', '\u0627', '\u0654']),
    ('\u00a0', [' ']) ]

/-- `mapChars` (`text.py:319-321`). -/
def mapChars (text : Text) (m : Dict Char Text) : Text :=
  text.flatMap fun x => match m.get? x with
    | some y => y
    | none => [x]

/-- `.replace ('\r\n', '\n')` (`text.py:352`): leftmost, non-overlapping. -/
def replaceCRLF : Text → Text
  | [] => []
  | [c] => [c]
  | c :: d :: t => if c = '\r' ∧ d = '\n' then '\n' :: replaceCRLF t else c :: replaceCRLF (d :: t)

/-- `iterchar` (`text.py:43-49`) with the batch size as a parameter (it is `1024*1024`). -/
def iterchar (batch : Nat) (text : Text) : Text :=
  if _h : text.take batch = [] then [] else text.take batch ++ iterchar batch (text.drop batch)
termination_by text.length
decreasing_by
  rw [List.take_eq_nil_iff, not_or] at _h
  have := List.length_pos_iff.2 _h.2
  rw [List.length_drop]
  omega

/-- What iterating over something yields, and the exception that ends the iteration, if any.
(Endless generators are not represented.) -/
structure Gen (α : Type) where
  items : List α
  error : Option PyErr
  deriving DecidableEq, Repr

namespace Gen
variable {α β : Type}

/-- A list as iterable. -/
def ofList (l : List α) : Gen α := ⟨l, none⟩

/-- `chain.from_iterable (map (f, items))` (`text.py:328`): the exception of the first `f (x)` that
raises, after its items, ends everything; an exception of `items` comes after all of its items. -/
def flatMap (f : α → Gen β) : List α → Option PyErr → Gen β
  | [], e => ⟨[], e⟩
  | x :: xs, e =>
    match (f x).error with
    | some err => ⟨(f x).items, some err⟩
    | none => ⟨(f x).items ++ (flatMap f xs e).items, (flatMap f xs e).error⟩

end Gen

/-- `apply` (`text.py:323-328`). -/
def applyFilters {α : Type} : List (α → Gen α) → Gen α → Gen α
  | [], items => items
  | f :: fs, items => applyFilters fs (Gen.flatMap f items.items items.error)

/-- What typing one text needs: the finger map, what counts as a letter and the layout. -/
structure Setup where
  hf : HandFinger
  letter : Char → Bool
  layout : KeyboardLayout
  fresh : AllStats

/-- One text (`text.py:350-362`): map the characters, type with a new writer, feed fresh statistics.
An exception of the statistics comes before one of the writer, since events are processed as they are
yielded. -/
def textStats (su : Setup) (text : Text) : Py AllStats := do
  let text := replaceCRLF (mapChars text charMap)
  let (evs, ending) := typeText su.hf su.layout none text
  let s ← AllStats.processAll su.hf su.letter su.layout su.fresh evs
  match ending with
  | .finished => .ok s
  | .raised e => .error e
  | .outOfFuel => .error .genericException

/-- `combined` and the number of texts (`text.py:335-336,370`). -/
structure WorkState where
  combined : AllStats
  count : Nat
  deriving DecidableEq, Repr

/-- `for text in apply (funcs, [item])` (`text.py:345-367`). -/
def workTexts (su : Setup) : List Text → WorkState → Py WorkState
  | [], s => .ok s
  | t :: ts, s => do
    let st ← textStats su t
    workTexts su ts ⟨s.combined.update st, s.count + 1⟩

/-- One item (`text.py:339-370`); `extract` is `apply (funcs, [item])`. -/
def workItem {ι : Type} (su : Setup) (extract : ι → Gen Text) (s : WorkState) (item : ι) : Py WorkState := do
  let s ← workTexts su (extract item).items s
  match (extract item).error with
  | none => .ok s
  | some e => .error e

/-- The items a worker takes from the queue, up to the `None` (`text.py:338-370`). -/
def workItems {ι : Type} (su : Setup) (extract : ι → Gen Text) : List ι → WorkState → Py WorkState
  | [], s => .ok s
  | i :: is, s => do
    let s ← workItem su extract s i
    workItems su extract is s

/-- What the worker puts into `outq` (`text.py:332-377`, not in benchmark mode): the statistics,
`None` if there was no text, or the exception. -/
def writeWorker {ι : Type} (su : Setup) (extract : ι → Gen Text) (items : List ι) : Py (Option AllStats) := do
  let s ← workItems su extract items ⟨su.fresh, 0⟩
  .ok (if s.count > 0 then some s.combined else none)

end Lulua
