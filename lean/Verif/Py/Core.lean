/-!
# Python runtime: exceptions and dictionaries

Exceptions are values. A python `dict` is an association list in insertion order
(python ≥ 3.7 guarantees the order); that no key occurs twice is the separate
predicate `Dict.WF`, kept by every operation.
-/

namespace Lulua

/-- The exception classes raised by the modelled code. -/
inductive PyErr where
  | keyError | valueError | assertionError | indexError | typeError
  | zeroDivision | attributeError | stopIteration | recursionError | genericException
  | fileNotFound | readerError | invalidOperation | otherError
  deriving DecidableEq, Repr

/-- Result of a python expression: a value or a raised exception. -/
abbrev Py (α : Type) := Except PyErr α

instance {α : Type} [DecidableEq α] : DecidableEq (Py α) := fun a b =>
  match a, b with
  | .ok x, .ok y => if h : x = y then isTrue (by rw [h]) else isFalse (by simpa using h)
  | .error x, .error y => if h : x = y then isTrue (by rw [h]) else isFalse (by simpa using h)
  | .ok _, .error _ => isFalse (by simp)
  | .error _, .ok _ => isFalse (by simp)

/-- Python text. (Lone surrogates, which `str` allows, are not representable.) -/
abbrev Text := List Char

/-- Python `dict` as its list of items in insertion order. -/
abbrev Dict (κ ν : Type) := List (κ × ν)

namespace Dict
variable {κ ν : Type} [DecidableEq κ]

/-- `d.get(k)`: the value stored under `k`, if any. -/
def get? : Dict κ ν → κ → Option ν
  | [], _ => none
  | (k', v) :: d, k => if k' = k then some v else get? d k

/-- `d[k]`. -/
def getItem (d : Dict κ ν) (k : κ) : Py ν :=
  match d.get? k with
  | some v => .ok v
  | none => .error .keyError

/-- `d[k] = v`: overwrites in place, appends a new key at the end. -/
def set : Dict κ ν → κ → ν → Dict κ ν
  | [], k, v => [(k, v)]
  | (k', v') :: d, k, v => if k' = k then (k', v) :: d else (k', v') :: set d k v

/-- `del d[k]` (of a key that may be absent). -/
def erase : Dict κ ν → κ → Dict κ ν
  | [], _ => []
  | (k', v') :: d, k => if k' = k then d else (k', v') :: erase d k

/-- `k in d`. -/
def contains (d : Dict κ ν) (k : κ) : Bool := (d.get? k).isSome

def keys (d : Dict κ ν) : List κ := d.map Prod.fst
def values (d : Dict κ ν) : List ν := d.map Prod.snd

/-- `dict(pairs)`: later pairs win. -/
def ofPairs (l : List (κ × ν)) : Dict κ ν := l.foldl (fun d p => d.set p.1 p.2) []

/-- What every python dict satisfies: no key occurs twice. -/
def WF (d : Dict κ ν) : Prop := (d.map Prod.fst).Nodup

instance (d : Dict κ ν) : Decidable (WF d) := inferInstanceAs (Decidable (List.Nodup _))

/-- Value of a counter dictionary (`defaultdict(int)` read without insertion). -/
def count (d : Dict κ Nat) (k : κ) : Nat := (d.get? k).getD 0

/-- `d[k] += n` on a `defaultdict(int)`. -/
def bump (d : Dict κ Nat) (k : κ) (n : Nat) : Dict κ Nat := d.set k (d.count k + n)

end Dict
end Lulua
