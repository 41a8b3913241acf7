import Verif.Py.Core

/-!
# `lulua/util.py` and `lulua/report.py`: small helpers

The Unicode database, the file system, the YAML parser and `deserialize` are parameters.
-/

namespace Lulua

/-! ### `limit` -/

/-- What a call of `next` does. -/
inductive Next (α : Type) where
  | item (a : α)
  | stop
  | raised (e : PyErr)
  deriving DecidableEq, Repr

/-- An iterator: the effect of `next` on its state `σ`. -/
abbrev Iter (σ α : Type) := σ → Next α × σ

/-- `limit` (`util.py:29-36`) as an iterator. The state of the generator is `none` after it has ended, otherwise the
number of rounds left and the state of `it`. -/
def limit {σ α : Type} (it : Iter σ α) : Iter (Option Nat × σ) α := fun x =>
  match x with
  | (none, s) => (.stop, (none, s))
  | (some 0, s) => (.stop, (none, s))
  | (some (n + 1), s) =>
    match it s with
    | (.item a, s') => (.item a, (some n, s'))
    | (.stop, s') => (.stop, (none, s'))
    | (.raised e, s') => (.raised e, (none, s'))

/-- `limit (l, n)`: `range (n)` is empty for a negative `n`. -/
def limitStart {σ : Type} (n : Int) (s : σ) : Option Nat × σ := (some n.toNat, s)

/-- Iterator of a list. -/
def listIter {α : Type} : Iter (List α) α
  | [] => (.stop, [])
  | a :: l => (.item a, l)

/-! ### `YamlLoader` -/

/-- What the loader depends on: opening a file for reading, opening a packaged resource by path, listing a directory of
the package, `yaml.safe_load` of either and `self.deserialize`. -/
structure YamlWorld (σ ψ α : Type) where
  openFile : String → Py σ
  openResource : String → Py σ
  listdir : String → Py (List String)
  load : σ → Py ψ
  deserialize : ψ → Py α

/-- `os.path.join` of two components, the first of which does not end with `/`. -/
def pathJoin (d k : String) : String := if k.startsWith "/" then k else d ++ "/" ++ k

namespace YamlWorld
variable {σ ψ α : Type}

/-- The list `openfunc` (`util.py:51-56`). -/
def openers (w : YamlWorld σ ψ α) (dir : String) (onlyRes : Bool) : List (String → Py σ) :=
  (if onlyRes then [] else [w.openFile]) ++
    [fun k => w.openResource (pathJoin dir (k ++ ".yaml")), fun k => w.openResource (pathJoin dir k)]

/-- The loop of `util.py:57-66`. -/
def tryAll (w : YamlWorld σ ψ α) (k : String) : List (String → Py σ) → Py α
  | [] => .error .keyError
  | f :: fs =>
    match (do let fd ← f k; let y ← w.load fd; w.deserialize y) with
    | .ok v => .ok v
    | .error .fileNotFound => tryAll w k fs
    | .error .readerError => tryAll w k fs
    | .error e => .error e

/-- `__getitem__` (`util.py:50-66`). -/
def getitem (w : YamlWorld σ ψ α) (dir k : String) (onlyRes : Bool) : Py α := w.tryAll k (w.openers dir onlyRes)

/-- The names taken by `__iter__` (`util.py:69-71`). -/
def wanted (res : String) : Bool := !res.startsWith "." && res.endsWith ".yaml"

/-- `list (loader)` (`util.py:68-72`). -/
def iterate (w : YamlWorld σ ψ α) (dir : String) : Py (List α) := do
  let names ← w.listdir dir
  (names.filter wanted).mapM fun res => w.getitem dir res true

end YamlWorld

/-! ### `displayText` -/

/-- The part of the Unicode database used: `combining`, whether the category is `Cf`, the name, and what is a word
character of a regular expression. -/
structure UniData where
  combining : Char → Nat
  format : Char → Bool
  name : Char → Option Text
  word : Char → Bool

/-- `re.compile ('\WTO\W', re.I).sub (' ', s)` (`util.py:83,86`). -/
def dropTo (u : UniData) : Text → Text
  | a :: b :: c :: d :: rest =>
    if u.word a = false ∧ (b = 'T' ∨ b = 't') ∧ (c = 'O' ∨ c = 'o') ∧ u.word d = false then ' ' :: dropTo u rest
    else a :: dropTo u (b :: c :: d :: rest)
  | rest => rest

/-- `x[0]`. -/
def firstChar : Text → Py Char
  | [] => .error .indexError
  | c :: _ => .ok c

/-- `''.join (map (lambda x: x[0], … .split (' ')))` (`util.py:85-86`). -/
def initials (u : UniData) (name : Text) : Py Text :=
  ((dropTo u (name.map fun c => if c = '-' then ' ' else c)).splitOn ' ').mapM firstChar

/-- `invMap` (`util.py:91-97`). -/
def invMap : List (Text × Text) :=
  [(['\t'], ['⭾']), (['\n'], ['↳']), ([' '], ['\u2423']), (['\x08'], ['⌦']), (['\u202f'], "[NNBSP]".toList)]

/-- `displayText` (`util.py:74-98`). -/
def displayText (u : UniData) : Option Text → Py (Option Text)
  | none => .ok none
  | some text =>
    if text.all fun c => u.combining c != 0 then .ok (some ('\u25cc' :: text))
    else
      let rest : Py (Option Text) := .ok (some ((Dict.get? invMap text).getD text))
      match text with
      | [c] =>
        if u.format c then
          match u.name c with
          | some n => do
            let short ← initials u n
            .ok (some ('[' :: short ++ [']']))
          | none => rest
        else rest
      | _ => rest

end Lulua
