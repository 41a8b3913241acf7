import Verif.Model.Writer

/-!
# Model of `lulua/stats.py`

Events are the second components of what `Writer.type` yields (`text.py:360`): a
`ButtonCombination` or a `SkipEvent`, so the `else: raise ValueError ()` branches of `process` are
not representable.
-/

namespace Lulua

/-! ### Merging dictionaries -/

/-- A python value as met by `updateDictOp`: a dict, a list, or anything else (`leaf`). -/
inductive NVal (κ α : Type) where
  | leaf (a : α)
  | list (l : List α)
  | dict (items : List (κ × NVal κ α))

section
variable {κ α : Type} [DecidableEq κ]

mutual
/-- The loop of `updateDictOp` (`stats.py:34-48`). `op` is only modelled on two leaves; for
`operator.add` and a dict or list on the left with a number on the right it raises
`TypeError`. -/
def updateItems (op : α → α → α) (a : List (κ × NVal κ α)) :
    List (κ × NVal κ α) → Py (List (κ × NVal κ α))
  | [] => .ok a
  | (k, v) :: b => do
    let w ← combineVal op (Dict.get? a k) v
    updateItems op (Dict.set a k w) b

/-- The value stored under a key (`stats.py:37-48`): the first argument is what `a` has there. -/
def combineVal (op : α → α → α) (old : Option (NVal κ α)) : NVal κ α → Py (NVal κ α)
  | .leaf y =>
    match old with
    | none => .ok (.leaf y)
    | some (.leaf x) => .ok (.leaf (op x y))
    | some _ => .error .typeError
  | .list l =>
    match old with
    | none => .ok (.list l)
    | some _ => .error .assertionError
  | .dict b =>
    match old with
    | none => .ok (.dict b)
    | some (.dict a) => (updateItems op a b).map .dict
    | some _ => .error .assertionError
end

/-- A value in a dict object: a number or a reference to another dict object. -/
inductive HVal where
  | leaf (n : Nat)
  | ref (i : Nat)
  deriving DecidableEq, Repr

/-- The dict objects in memory, by identity. -/
abbrev Heap (κ : Type) := Nat → Dict κ HVal

/-- Assignment to an entry of a dict object. -/
def Heap.write (h : Heap κ) (a : Nat) (k : κ) (v : HVal) : Heap κ :=
  fun x => if x = a then (h a).set k v else h x

/-- The loop of `updateDictOp (a, b, operator.add)` (`stats.py:34-48`) on dict objects, `rec` being
the recursive call. The items of `b` are those at the beginning of the loop (python would raise if
a dict changed its size while being iterated). -/
def heapLoop (rec : Heap κ → Nat → Nat → Py (Heap κ)) (a : Nat) :
    List (κ × HVal) → Heap κ → Py (Heap κ)
  | [], h => .ok h
  | (k, v) :: items, h =>
    match (h a).get? k, v with
    | none, v => heapLoop rec a items (h.write a k v)
    | some (.leaf x), .leaf y => heapLoop rec a items (h.write a k (.leaf (x + y)))
    | some (.ref _), .leaf _ => .error .typeError
    | some (.leaf _), .ref _ => .error .assertionError
    | some (.ref q), .ref r => do
      let h ← rec h q r
      heapLoop rec a items h

/-- `updateDictOp (a, b, operator.add)` (`stats.py:34-48`) on dict objects; the first argument is
the number of nested calls python allows. -/
def heapUpdate : Nat → Heap κ → Nat → Nat → Py (Heap κ)
  | 0, _, _, _ => .error .recursionError
  | n + 1, h, a, b => heapLoop (heapUpdate n) a (h b) h

/-- Merging several dicts into `a`, one after the other (`stats.py:249-251`). -/
def heapMerge (n : Nat) (a : Nat) : List Nat → Heap κ → Py (Heap κ)
  | [], h => .ok h
  | b :: bs, h => do
    let h ← heapUpdate n h a b
    heapMerge n a bs h

/-- `updateDictOp (a, b, operator.add)` (`stats.py:34-48`) for dicts of numbers: the resulting
`a`. -/
def updateCounts (a b : Dict κ Nat) : Dict κ Nat :=
  b.foldl (fun a p => match a.get? p.1 with
    | none => a.set p.1 p.2
    | some x => a.set p.1 (x + p.2)) a

/-- `updateDictOp (a, b, operator.add)` (`stats.py:34-48`) for dicts of dicts of numbers. -/
def updateNested {μ : Type} [DecidableEq μ] (a b : Dict κ (Dict μ Nat)) : Dict κ (Dict μ Nat) :=
  b.foldl (fun a p => match a.get? p.1 with
    | none => a.set p.1 p.2
    | some x => a.set p.1 (updateCounts x p.2)) a

/-- `d[k][n] += 1` for a dict of `defaultdict (int)`. -/
def bumpNested {μ : Type} [DecidableEq μ] (d : Dict κ (Dict μ Nat)) (k : κ) (n : μ) :
    Py (Dict κ (Dict μ Nat)) := do
  let inner ← d.getItem k
  .ok (d.set k (inner.bump n 1))

end

/-! ### Simple statistics -/

/-- `SimpleStats` (`stats.py:110-120`). -/
structure SimpleStats where
  buttons : Dict Button Nat
  combinations : Dict Comb Nat
  unknown : Dict Char Nat
  deriving DecidableEq, Repr

namespace SimpleStats

/-- `__init__` (`stats.py:115-120`). -/
def init : SimpleStats := ⟨[], [], []⟩

/-- `process` (`stats.py:129-137`). -/
def process (s : SimpleStats) : Event → SimpleStats
  | .skip c => { s with unknown := s.unknown.bump c 1 }
  | .typed _ comb =>
    { s with buttons := comb.iter.foldl (fun d b => d.bump b 1) s.buttons
             combinations := s.combinations.bump comb 1 }

/-- `update` (`stats.py:139-142`). -/
def update (s o : SimpleStats) : SimpleStats :=
  ⟨updateCounts s.buttons o.buttons, updateCounts s.combinations o.combinations,
   updateCounts s.unknown o.unknown⟩

end SimpleStats

/-! ### Run lengths -/

/-- `RunlenStats` (`stats.py:59-75`). -/
structure RunlenStats where
  lastHand : Option Direction
  perHand : Dict Direction (Dict Nat Nat)
  curPerHand : Nat
  lastFinger : Option (Direction × Finger)
  fingerDist : Dict (Direction × Finger) (Dict Nat Nat)
  fingerRunlen : Nat
  deriving DecidableEq, Repr

/-- `iter (Direction)` (`layout.py:33-36`). -/
def Direction.all : List Direction := [.left, .right]

/-- `iter (FingerType)` (`layout.py:42-48`). -/
def Finger.all : List Finger := [.little, .ring, .middle, .index, .thumb]

namespace RunlenStats

/-- `__init__` (`stats.py:65-75`). -/
def init : RunlenStats :=
  { lastHand := none
    perHand := Direction.all.map fun x => (x, [])
    curPerHand := 0
    lastFinger := none
    fingerDist := Direction.all.flatMap fun x => Finger.all.map fun y => ((x, y), [])
    fingerRunlen := 0 }

/-- `if self.lastHand and thisHand != self.lastHand: …` (`stats.py:85-87`). -/
def flushHand (s : RunlenStats) (this : Direction) : Py RunlenStats :=
  match s.lastHand with
  | none => .ok s
  | some h =>
    if this ≠ h then do
      let d ← bumpNested s.perHand h s.curPerHand
      .ok { s with perHand := d, curPerHand := 0 }
    else .ok s

/-- `if self.lastFinger and fingerKey != self.lastFinger: …` (`stats.py:92-94`); the run is booked
on the new finger. -/
def flushFinger (s : RunlenStats) (this : Direction × Finger) : Py RunlenStats :=
  match s.lastFinger with
  | none => .ok s
  | some f =>
    if this ≠ f then do
      let d ← bumpNested s.fingerDist this s.fingerRunlen
      .ok { s with fingerDist := d, fingerRunlen := 0 }
    else .ok s

/-- `process` (`stats.py:81-105`). -/
def process (hf : HandFinger) (s : RunlenStats) : Event → Py RunlenStats
  | .skip _ => .ok { s with lastHand := none, curPerHand := 0, lastFinger := none, fingerRunlen := 0 }
  | .typed _ comb => do
    if comb.buttons.length ≠ 1 then .error .assertionError
    let b ← first comb.buttons
    let pos ← hf b
    let s ← s.flushHand pos.1
    let s := { s with curPerHand := s.curPerHand + 1, lastHand := some pos.1 }
    let s ← s.flushFinger pos
    .ok { s with fingerRunlen := s.fingerRunlen + 1, lastFinger := some pos }

/-- `update` (`stats.py:107-108`): only the hand distribution. -/
def update (s o : RunlenStats) : RunlenStats :=
  { s with perHand := updateNested s.perHand o.perHand }

end RunlenStats

/-! ### Triads -/

/-- A triad, the key of `triads` (`stats.py:182`). -/
abbrev Triad := Comb × Comb × Comb

/-- `TriadStats` (`stats.py:144-161`). -/
structure TriadStats where
  triad : List Comb
  triads : Dict Triad Nat
  ignored : List Button
  deriving DecidableEq, Repr

namespace TriadStats

/-- The names in `__init__` (`stats.py:161`). -/
def ignoredNames : List String := ["Fl_space", "Fr_space", "CD_ret", "Cl_tab"]

/-- `__init__` (`stats.py:155-161`) for a keyboard. -/
def init (t : InternTable) (kb : PhysicalKeyboard) : Py TriadStats := do
  let ig ← GenericLayout.findAll t kb ignoredNames
  .ok { triad := [], triads := [], ignored := ig }

/-- `if len (self._triad) == 3: …` (`stats.py:181-183`). -/
def record (s : TriadStats) : TriadStats :=
  match s.triad with
  | [a, b, c] => { s with triads := s.triads.bump (a, b, c) 1 }
  | _ => s

/-- `self._triad.append (event)` and the shift (`stats.py:175-180`). -/
def append (s : TriadStats) (comb : Comb) : TriadStats :=
  let t := s.triad ++ [comb]
  { s with triad := if t.length > 3 then t.drop 1 else t }

/-- `process` (`stats.py:168-185`). The assertion in line 180 is not checked here; the length is
at most three at all times (`Proofs/Stats.lean`). -/
def process (s : TriadStats) : Event → Py TriadStats
  | .skip _ => .ok { s with triad := [] }
  | .typed _ comb => do
    if comb.buttons.length ≠ 1 then .error .assertionError
    let btn ← first comb.buttons
    if btn ∈ s.ignored then .ok s
    else .ok (s.append comb).record

/-- `update` (`stats.py:187-188`). -/
def update (s o : TriadStats) : TriadStats := { s with triads := updateCounts s.triads o.triads }

end TriadStats

/-! ### Words -/

/-- `WordStats` (`stats.py:190-203`). -/
structure WordStats where
  words : Dict Text Nat
  current : Text
  deriving DecidableEq, Repr

namespace WordStats

/-- `__init__` (`stats.py:199-203`). -/
def init : WordStats := ⟨[], []⟩

/-- Body of `for t in text` (`stats.py:216-224`); `letter c` stands for
`unicodedata.category (c) in {'Lo', 'Mn'}`. -/
def processChar (letter : Char → Bool) (s : WordStats) (c : Char) : WordStats :=
  if letter c then { s with current := s.current ++ [c] }
  else if s.current.isEmpty then s
  else { words := s.words.bump s.current 1, current := [] }

/-- The loop over the text of a combination (`stats.py:215-224`); iterating over something that is
not text is modelled as `TypeError`. -/
def processText (letter : Char → Bool) (s : WordStats) : LVal → Py WordStats
  | .str t => .ok (t.foldl (processChar letter) s)
  | .other _ => .error .typeError

/-- `process` (`stats.py:210-226`). -/
def process (letter : Char → Bool) (L : KeyboardLayout) (s : WordStats) : Event → Py WordStats
  | .skip _ => .ok { s with current := [] }
  | .typed _ comb => do
    let text ← L.getText comb
    processText letter s text

/-- `update` (`stats.py:228-229`). -/
def update (s o : WordStats) : WordStats := { s with words := updateCounts s.words o.words }

end WordStats

/-! ### All statistics of a text, and combining -/

/-- One object per class of `allStats` (`stats.py:231`); the dict `name → object` of
`makeCombined` (`stats.py:244`) and of a result file. -/
structure AllStats where
  simple : SimpleStats
  runlen : RunlenStats
  triads : TriadStats
  words : WordStats
  deriving DecidableEq, Repr

namespace AllStats

/-- `[cls(w) for cls in allStats]` (`text.py:359`), and `makeCombined` (`stats.py:240-244`), whose
layout plays no role. -/
def init (t : InternTable) (kb : PhysicalKeyboard) : Py AllStats := do
  let tr ← TriadStats.init t kb
  .ok { simple := .init, runlen := .init, triads := tr, words := .init }

/-- `for s in stats: s.process (event)` (`text.py:361-362`). -/
def process (hf : HandFinger) (letter : Char → Bool) (L : KeyboardLayout) (s : AllStats)
    (ev : Event) : Py AllStats := do
  let runlen ← s.runlen.process hf ev
  let triads ← s.triads.process ev
  let words ← s.words.process letter L ev
  .ok { simple := s.simple.process ev, runlen := runlen, triads := triads, words := words }

/-- The loop over all events (`text.py:360-362`). -/
def processAll (hf : HandFinger) (letter : Char → Bool) (L : KeyboardLayout) :
    AllStats → List Event → Py AllStats
  | s, [] => .ok s
  | s, ev :: evs => do
    let s ← s.process hf letter L ev
    processAll hf letter L s evs

/-- `for s in allStats: combined[s.name].update (r[s.name])` (`stats.py:250-251`, also
`text.py:364-365`). -/
def update (s o : AllStats) : AllStats :=
  { simple := s.simple.update o.simple, runlen := s.runlen.update o.runlen,
    triads := s.triads.update o.triads, words := s.words.update o.words }

/-- `combine` (`stats.py:246-252`): the unpickled files are merged into fresh statistics. -/
def combine (fresh : AllStats) (files : List AllStats) : AllStats := files.foldl update fresh

end AllStats

/-! ### Figures derived from the statistics -/

/-- The loop of `layoutstats` (`stats.py:333-336`): presses per hand and per finger. -/
def handFingerLoop (hf : HandFinger) :
    List (Button × Nat) → Dict Direction Nat → Dict (Direction × Finger) Nat →
    Py (Dict Direction Nat × Dict (Direction × Finger) Nat)
  | [], hands, fingers => .ok (hands, fingers)
  | (b, n) :: rest, hands, fingers => do
    let pos ← hf b
    handFingerLoop hf rest (hands.bump pos.1 n) (fingers.bump pos n)

/-- Result of `layoutstats`, without the hamza figures. -/
structure HandStats where
  hands : Dict Direction Nat
  fingers : Dict (Direction × Finger) Nat
  buttonPresses : Nat
  asymmetry : Rat

/-- `layoutstats` (`stats.py:330-338`); floats as exact rationals. `hands[LEFT]` reads a
`defaultdict`; a division by zero is an exception. -/
def layoutHandStats (hf : HandFinger) (buttons : Dict Button Nat) : Py HandStats := do
  let buttonPresses := (buttons.map Prod.snd).sum
  let (hands, fingers) ← handFingerLoop hf buttons [] []
  if buttonPresses = 0 then .error .zeroDivision
  .ok { hands := hands, fingers := fingers, buttonPresses := buttonPresses,
        asymmetry := (hands.count .left : Rat) / buttonPresses
          - (hands.count .right : Rat) / buttonPresses }

/-- The characters and words of `corpusStats` (`stats.py:401-402`). -/
def corpusTotals (s : AllStats) : Nat × Nat :=
  ((s.simple.combinations.map Prod.snd).sum, (s.words.words.map Prod.snd).sum)

end Lulua
