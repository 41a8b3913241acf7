import Verif.Model.Layout

/-!
# Model of `lulua/writer.py`
-/

namespace Lulua

/-- Which hand and finger presses a button, as returned by `Writer.getHandFinger`
(`writer.py:142-143`). A parameter of the model; the shipped table is
`Verif/Data/Fingermap.lean`. -/
abbrev HandFinger := Button → Py (Direction × Finger)

/-- `getHandFinger` (`writer.py:142-143`) for a finger map by name and an intern table. -/
def getHandFinger (fingermap : Dict String (Direction × Finger)) (t : InternTable) : HandFinger :=
  fun b => do
    let n ← t.nameOf b
    fingermap.getItem n

/-- `dirToScore` (`writer.py:163`). -/
def dirToScore : Direction → Int
  | .left => 1
  | .right => -1

/-- The loops `for b in …: pos = …; balance += dirToScore[pos]` (`writer.py:169-171,177-179`). -/
def balanceLoop (hf : HandFinger) : List Button → Int → Py Int
  | [], acc => .ok acc
  | b :: bs, acc => do
    let pos ← hf b
    balanceLoop hf bs (acc + dirToScore pos.1)

/-- `prevBalance` (`writer.py:167-174`). -/
def prevBalance (hf : HandFinger) (prev : Option Comb) (comb : Comb) : Py Int :=
  match prev with
  | some p =>
    balanceLoop hf ((if p.modifier.isEmpty then p.buttons else p.modifier) ++ comb.buttons) 0
  | none => .ok (dirToScore .right)

/-- `calcEffort` (`writer.py:164-181`). -/
def calcEffort (hf : HandFinger) (prev : Option Comb) (comb : Comb) : Py Nat := do
  let prevBalance ← prevBalance hf prev comb
  let balance ← balanceLoop hf comb.iter 0
  .ok ((comb.len <<< 16) ||| (balance.natAbs <<< 8) ||| (prevBalance.natAbs <<< 0))

/-- `min (zip (map (calcEffort, …), …), key=itemgetter (0))` (`writer.py:183`) after the first
element: a later element replaces the best one only if its effort is strictly smaller. -/
def minLoop (hf : HandFinger) (prev : Option Comb) : List Comb → Nat → Comb → Py Comb
  | [], _, best => .ok best
  | c :: cs, e, best => do
    let e' ← calcEffort hf prev c
    if e' < e then minLoop hf prev cs e' c else minLoop hf prev cs e best

/-- `chooseCombination` (`writer.py:145-184`); `min` of nothing is a `ValueError`. -/
def chooseCombination (hf : HandFinger) (prev : Option Comb) (combs : List Comb) : Py Comb :=
  match combs with
  | [] => .error .valueError
  | [c] => .ok c
  | c :: cs => do
    let e ← calcEffort hf prev c
    minLoop hf prev cs e c

/-- What `Writer.type` yields (`writer.py:202,208`): `(match, comb)` or
`(None, SkipEvent (char))`. -/
inductive Event where
  | typed (text : Text) (comb : Comb)
  | skip (char : Char)
  deriving DecidableEq, Repr

/-- Local state of the generator: the buffer, what is still unread in `fd`, and
`lastCombination`. -/
structure TypeState where
  buf : Text
  rest : Text
  last : Option Comb
  deriving DecidableEq, Repr

/-- `buf += fd.read (self.layout.bufferLen-len (buf))` (`writer.py:192`); `read (n)` returns `n`
characters or whatever is left. -/
def TypeState.refill (n : Nat) (s : TypeState) : TypeState :=
  let k := n - s.buf.length
  { s with buf := s.buf ++ s.rest.take k, rest := s.rest.drop k }

/-- What one iteration of `while True` (`writer.py:191-210`) does. -/
inductive StepResult where
  | stop
  | yield (ev : Event) (s : TypeState)
  | raise (e : PyErr)
  deriving DecidableEq, Repr

/-- The `try` body up to the `yield` (`writer.py:197-200`). -/
def tryMatch (hf : HandFinger) (L : KeyboardLayout) (last : Option Comb) (buf : Text) :
    Py (Text × Comb) := do
  let (m, combs) ← L.call buf
  if m.length > 0 then
    let c ← chooseCombination hf last combs
    .ok (m, c)
  else .error .assertionError

/-- One iteration of the loop in `Writer.type` (`writer.py:191-210`). `SkipEvent (buf[0])` is
only evaluated with a non-empty buffer. -/
def typeStep (hf : HandFinger) (L : KeyboardLayout) (s : TypeState) : StepResult :=
  let s := s.refill L.bufferLen
  match s.buf with
  | [] => .stop
  | c :: cs =>
    match tryMatch hf L s.last (c :: cs) with
    | .ok (m, comb) =>
      .yield (.typed m comb) { s with buf := (c :: cs).drop m.length, last := some comb }
    | .error .keyError => .yield (.skip c) { s with buf := cs }
    | .error e => .raise e

/-- How the generator ended. `outOfFuel` is an artefact of the model, shown to be unreachable. -/
inductive Ending where
  | finished | raised (e : PyErr) | outOfFuel
  deriving DecidableEq, Repr

/-- Run the loop for at most `fuel` iterations and collect what it yields. -/
def typeLoop (hf : HandFinger) (L : KeyboardLayout) : Nat → TypeState → List Event × Ending
  | 0, _ => ([], .outOfFuel)
  | fuel + 1, s =>
    match typeStep hf L s with
    | .stop => ([], .finished)
    | .raise e => ([], .raised e)
    | .yield ev s' =>
      let (evs, e) := typeLoop hf L fuel s'
      (ev :: evs, e)

/-- `Writer.type (StringIO (text))` (`writer.py:189-210`) with the writer's `lastCombination`
being `last` (initially `None`, `writer.py:137`). One iteration more than there are characters
is enough (C05). -/
def typeText (hf : HandFinger) (L : KeyboardLayout) (last : Option Comb) (text : Text) :
    List Event × Ending :=
  typeLoop hf L (text.length + 1) { buf := [], rest := text, last := last }

end Lulua
