import Verif.Spec.CProgram

/-!
# Compiling a C file

A checker for a file made of `#include <wchar.h>`, macros, `typedef struct`, static variables with initializers and one
function returning an address. Everything has to be declared before it is used, numbers have to fit the type of the field
they are stored in (the driver is compiled with `-Wall -Wextra -Werror`), a structure needs a value for each field and an array
of known length one for each element, pointers have to point to the right type and no static variable may be unused.

`unsigned char` has 8 bits, `unsigned short` and `wchar_t` 16, `unsigned long` 32; pointers have `w` bytes.
-/

namespace Lulua.Spec
open Lulua

/-! ### Units -/

/-- Where the reader is: between units, in a `typedef` (whose brace has been closed), in a definition, in a function. -/
inductive CPos where
  | top | typedef (closed : Bool) (acc : List CTok) | static (acc : List CTok) | func (acc : List CTok)

/-- The units of a file without the semicolon that ends them. -/
def cUnits : CPos → List CTok → Option (List (List CTok))
  | .top, [] => some []
  | .top, .directive l :: ts => (cUnits .top ts).map ([.directive l] :: ·)
  | .top, .word s :: ts =>
    if s = "typedef".toList then cUnits (.typedef false [.word s]) ts
    else if s = "static".toList then cUnits (.static [.word s]) ts
    else cUnits (.func [.word s]) ts
  | .typedef closed acc, t :: ts =>
    if t = .punct '}' then cUnits (.typedef true (t :: acc)) ts
    else if t = .punct ';' ∧ closed = true then (cUnits .top ts).map (acc.reverse :: ·)
    else cUnits (.typedef closed (t :: acc)) ts
  | .static acc, t :: ts => if t = .punct ';' then (cUnits .top ts).map (acc.reverse :: ·) else cUnits (.static (t :: acc)) ts
  | .func acc, t :: ts => if t = .punct '}' then (cUnits .top ts).map ((t :: acc).reverse :: ·) else cUnits (.func (t :: acc)) ts
  | _, _ => none

/-! ### Types -/

inductive CTy where
  | num (bits : Nat) | ptr (t : CTy) | named (n : Text) | arr (t : CTy) (len : Option Nat)
  deriving DecidableEq, Repr

/-- What a name of a type means: a structure or another type. -/
inductive CDecl where
  | struct (fields : List (Text × CTy)) | same (t : CTy)
  deriving DecidableEq, Repr

abbrev CTypes := List (Text × CDecl)

/-- The words at the start. -/
def leadingWords : List CTok → List Text
  | .word w :: ts => w :: leadingWords ts
  | _ => []

/-- A type without stars. `wchar_t` is known after `#include <wchar.h>`. -/
def cBase (wchar : Bool) (types : CTypes) : List Text → Option CTy
  | [a, b] =>
    if a ≠ "unsigned".toList then none
    else if b = "char".toList then some (.num 8)
    else if b = "short".toList then some (.num 16)
    else if b = "long".toList then some (.num 32)
    else none
  | [w] => if w = "wchar_t".toList then (if wchar then some (.num 16) else none) else (types.lookup w).map fun _ => .named w
  | _ => none

def cStars (t : CTy) : Nat → CTy
  | 0 => t
  | n + 1 => .ptr (cStars t n)

/-- `TYPE NAME`, `TYPE *NAME`, `TYPE NAME[]` or `TYPE NAME[NUMBER]`. -/
def cField (wchar : Bool) (types : CTypes) (ts : List CTok) : Option (Text × CTy) := do
  let ws := leadingWords ts
  match ts.drop ws.length with
  | [] => do
    let t ← cBase wchar types ws.dropLast
    let name ← ws.getLast?
    some (name, t)
  | [.punct '[', .punct ']'] => do
    let t ← cBase wchar types ws.dropLast
    let name ← ws.getLast?
    some (name, .arr t none)
  | [.punct '[', .word n, .punct ']'] => do
    let t ← cBase wchar types ws.dropLast
    let name ← ws.getLast?
    let n ← cNumber n
    some (name, .arr t (some n))
  | .punct '*' :: ts => do
    let t ← cBase wchar types ws
    match ts.dropWhile (· = .punct '*') with
    | [.word name] => some (name, cStars t (ts.length))
    | _ => none
  | _ => none

/-- An array of unknown length. -/
def CTy.flexible : CTy → Bool
  | .arr _ none => true
  | _ => false

/-- The fields of a structure. Only the last one may be an array of unknown length. -/
def cFields (wchar : Bool) (types : CTypes) (body : List CTok) : Option (List (Text × CTy)) := do
  let parts := body.splitOn (.punct ';')
  if parts.getLast? ≠ some [] then none
  let fields ← parts.dropLast.mapM (cField wchar types)
  if fields ≠ [] ∧ (fields.map Prod.fst).Nodup ∧ ∀ x ∈ fields.dropLast, x.2.flexible = false then some fields else none

/-- `typedef struct [TAG] { FIELDS } NAME, *POINTER`, without the first word. -/
def cTypedef (wchar : Bool) (types : CTypes) (ts : List CTok) : Option CTypes := do
  let head := ts.takeWhile (· ≠ .punct '{')
  let rest := (ts.drop (head.length + 1))
  let body := rest.takeWhile (· ≠ .punct '}')
  if (leadingWords head).head? ≠ some "struct".toList ∨ head.length ≠ (leadingWords head).length ∨ 2 < head.length then none
  let fields ← cFields wchar types body
  match rest.drop (body.length + 1) with
  | [.word n, .punct ',', .punct '*', .word p] =>
    if n ≠ p ∧ types.lookup n = none ∧ types.lookup p = none then some (types ++ [(n, .struct fields), (p, .same (.ptr (.named n)))]) else none
  | _ => none

/-- The least multiple of `a` from `n` on. -/
def roundUp (n a : Nat) : Nat := (n + a - 1) / a * a

/-- Size and alignment of a type in bytes, `depth` levels deep. -/
def cLayout (w : Nat) (types : CTypes) : (depth : Nat) → CTy → Option (Nat × Nat)
  | 0, _ => none
  | _ + 1, .num b => some (b / 8, b / 8)
  | _ + 1, .ptr _ => some (w, w)
  | d + 1, .arr t len => do
    let (s, a) ← cLayout w types d t
    some (len.getD 0 * s, a)
  | d + 1, .named n =>
    match types.lookup n with
    | none => none
    | some (.same t) => cLayout w types d t
    | some (.struct fields) => do
      let l ← fields.mapM fun x => cLayout w types d x.2
      let a := (l.map Prod.snd).foldl max 1
      some (roundUp (l.foldl (fun offset x => roundUp offset x.2 + x.1) 0) a, a)

/-- Where fields of these sizes and alignments are. -/
def cPlaces : (start : Nat) → List (Nat × Nat) → List Nat
  | _, [] => []
  | start, x :: l => roundUp start x.2 :: cPlaces (roundUp start x.2 + x.1) l

/-- Where the fields of a structure are, and its size. -/
def cOffsets (w : Nat) (types : CTypes) (depth : Nat) (n : Text) : Option (List (Text × Nat) × Nat) :=
  match types.lookup n with
  | some (.struct fields) => do
    let l ← fields.mapM fun x => cLayout w types depth x.2
    let size ← cLayout w types (depth + 1) (.named n)
    some ((fields.map Prod.fst).zip (cPlaces 0 l), size.1)
  | _ => none

/-- The structures a keyboard driver hands to Windows, as its header `kbd.h` has them: fields, where they are if pointers have `w`
bytes, and size. -/
def kbdHeader (w : Nat) : List (String × List (String × Nat) × Nat) :=
  ((List.range' 1 8).map fun n => (String.ofList ("VK_TO_WCHARS".toList ++ natText n), [("VirtualKey", 0), ("Attributes", 1), ("wch", 2)], 2 + 2 * n)) ++
  [("VK_TO_BIT", [("Vk", 0), ("ModBits", 1)], 2),
    ("MODIFIERS", [("pVkToBit", 0), ("wMaxModBits", w), ("ModNumber", w + 2)], 2 * w),
    ("VSC_VK", [("Vsc", 0), ("Vk", 2)], 4),
    ("VSC_LPWSTR", [("vsc", 0), ("pwsz", w)], 2 * w),
    ("VK_TO_WCHAR_TABLE", [("pVkToWchars", 0), ("nModifications", w), ("cbSize", w + 1)], 2 * w),
    ("DEADKEY", [("dwBoth", 0), ("wchComposed", 4), ("uFlags", 6)], 8),
    ("LIGATURE1", [("VirtualKey", 0), ("ModificationNumber", 2), ("wch", 4)], 6),
    ("KBDTABLES", [("pCharModifiers", 0), ("pVkToWcharTable", w), ("pDeadKey", 2 * w), ("pKeyNames", 3 * w), ("pKeyNamesExt", 4 * w),
      ("pKeyNamesDead", 5 * w), ("pusVSCtoVK", 6 * w), ("bMaxVSCtoVK", 7 * w), ("pVSCtoVK_E0", 8 * w), ("pVSCtoVK_E1", 9 * w),
      ("fLocaleFlags", 10 * w), ("nLgMax", 10 * w + 4), ("cbLgEntry", 10 * w + 5), ("pLigature", 10 * w + 8), ("dwType", 11 * w + 8),
      ("dwSubType", 11 * w + 12)], 11 * w + 16)]

/-! ### Values -/

/-- What has been read: whether `wchar.h` is included, types, macros, definitions, types of variables, functions with the
variable whose address they return. -/
structure CUnit where
  wchar : Bool
  types : CTypes
  macros : List (Text × Nat)
  defs : List CDef
  vars : List (Text × CTy)
  entry : List (Text × Text)

/-- How deep types may be nested. -/
def cDepth : Nat := 8

/-- The size of a variable. -/
def CUnit.sizeof (u : CUnit) (w : Nat) (v : Text) : Option Nat := do
  let t ← u.vars.lookup v
  (cLayout w u.types cDepth t).map Prod.fst

/-- The size of the first element of an array. -/
def CUnit.sizeofFirst (u : CUnit) (w : Nat) (v : Text) : Option Nat :=
  match u.vars.lookup v with
  | some (.arr t _) => (cLayout w u.types cDepth t).map Prod.fst
  | _ => none

/-- A number, perhaps with suffix `UL`, or a macro. -/
def CUnit.constant (u : CUnit) (w : Text) : Option Nat :=
  if w.drop (w.length - 2) = ['U', 'L'] then cNumber (w.take (w.length - 2)) else cWord u.macros w

/-- The operators, by level: `/`, `<<`, `&`, `|`. Results have to fit 32 bits. -/
def cOperator : (level : Nat) → List CTok → Option ((Nat → Nat → Option Nat) × List CTok)
  | 1, .punct '/' :: ts => some (fun a b => if b = 0 then none else some (a / b), ts)
  | 2, .punct '<' :: .punct '<' :: ts => some (fun a b => if a <<< b < 2 ^ 32 then some (a <<< b) else none, ts)
  | 3, .punct '&' :: ts => some (fun a b => some (a &&& b), ts)
  | 4, .punct '|' :: ts => some (fun a b => some (a ||| b), ts)
  | _, _ => none

/-- The value of an expression and what follows. Level zero are numbers, `sizeof` and expressions in parentheses. The operators `/` and
`<<` are not chained. -/
def CUnit.arith (u : CUnit) (w : Nat) : (fuel level : Nat) → List CTok → Option (Nat × List CTok)
  | 0, _, _ => none
  | fuel + 1, 0, ts =>
    match ts with
    | .punct '(' :: ts => do
      let (v, ts) ← u.arith w fuel 4 ts
      match ts with
      | .punct ')' :: ts => some (v, ts)
      | _ => none
    | .word s :: .punct '(' :: .word v :: .punct ')' :: ts => if s = "sizeof".toList then (u.sizeof w v).map (·, ts) else none
    | .word s :: .punct '(' :: .punct '*' :: .word v :: .punct ')' :: ts => if s = "sizeof".toList then (u.sizeofFirst w v).map (·, ts) else none
    | .word s :: .punct '(' :: .word v :: .punct '[' :: .word i :: .punct ']' :: .punct ')' :: ts =>
      if s = "sizeof".toList ∧ i = ['0'] then (u.sizeofFirst w v).map (·, ts) else none
    | .word s :: ts => (u.constant s).map (·, ts)
    | _ => none
  | fuel + 1, level + 1, ts => do
    let (a, ts) ← u.arith w fuel level ts
    match cOperator (level + 1) ts with
    | none => some (a, ts)
    | some (op, ts) => do
      let (b, ts) ← u.arith w fuel (if 3 ≤ level + 1 then level + 1 else level) ts
      let c ← op a b
      some (c, ts)

def CUnit.value (u : CUnit) (w : Nat) (ts : List CTok) : Option Nat :=
  match cOr u.macros ts with
  | some n => some n
  | none =>
    match u.arith w (5 * ts.length + 5) 4 ts with
    | some (n, []) => some n
    | _ => none

/-- The variable is an array of these. -/
def CUnit.arrayOf (u : CUnit) (t : CTy) (v : Text) : Bool :=
  match u.vars.lookup v with
  | some (.arr t' _) => t' = t
  | _ => false

/-- Whether an expression is a pointer to a type: `NULL`, an array, the address of a variable or of the first element of an array, an
array converted to another type of pointer, a wide text. -/
def CUnit.pointer (u : CUnit) (t : CTy) : List CTok → Bool
  | [.word v] => if v = "NULL".toList then u.wchar else u.arrayOf t v
  | [.punct '&', .word v] => u.vars.lookup v = some t
  | [.punct '&', .word v, .punct '[', .word i, .punct ']'] => i = ['0'] && u.arrayOf t v
  | [.punct '(', .word p, .punct ')', .word v] =>
    u.types.lookup p = some (.same (.ptr t)) && (match u.vars.lookup v with | some (.arr _ _) => true | _ => false)
  | [.word l, .str _] => l = ['L'] && t = .num 16
  | _ => false

/-- `FIELD: VALUE`. -/
def designated : CInit → Option (Text × CInit)
  | .expr (.word f :: .punct ':' :: ts) => some (f, .expr ts)
  | _ => none

/-- Whether a value may be stored in a variable of this type, `depth` levels deep. -/
def CUnit.fits (u : CUnit) (w : Nat) : (depth : Nat) → CTy → CInit → Bool
  | 0, _, _ => false
  | _ + 1, .num bits, .expr ts => (u.value w ts).any (· < 2 ^ bits)
  | _ + 1, .ptr t, .expr ts => u.pointer t ts
  | d + 1, .arr t len, .list l => len.all (· = l.length) && l.all (u.fits w d t)
  | d + 1, .named n, i =>
    match u.types.lookup n, i with
    | some (.same t), i => u.fits w d t i
    | some (.struct fields), .list l =>
      match l.mapM designated with
      | some ds =>
        ds.length = fields.length && (ds.map Prod.fst).Nodup &&
          ds.all fun x => match fields.lookup x.1 with | some t => u.fits w d t x.2 | none => false
      | none => l.length = fields.length && (fields.zip l).all fun x => u.fits w d x.1.2 x.2
    | _, _ => false
  | _, _, _ => false

/-- What a field of a variable is set to. -/
def CUnit.field (u : CUnit) (v f : Text) : Option (List CTok) := do
  let d ← u.defs.find? fun d => d.name = v
  let fields ← d.init.mapM designated
  match fields.lookup f with
  | some (.expr ts) => some ts
  | _ => none

/-! ### The file -/

/-- `static TYPE NAME[] = INIT` or `static TYPE NAME = INIT`. -/
def CUnit.static (u : CUnit) (w : Nat) (ts : List CTok) : Option CUnit := do
  let d ← cDef ts
  let ws := leadingWords ts
  let base ← cBase u.wchar u.types (ws.drop 1).dropLast
  let t := if ts[ws.length]? = some (.punct '[') then CTy.arr base (some d.init.length) else base
  if u.vars.lookup d.name = none ∧ u.macros.lookup d.name = none ∧ u.fits w cDepth t (.list d.init) = true then
    some { u with defs := u.defs ++ [d], vars := u.vars ++ [(d.name, t)] }
  else none

/-- `TYPE NAME() { return &VARIABLE; }`. -/
def CUnit.func (u : CUnit) : List CTok → Option CUnit
  | [.word p, .word f, .punct '(', .punct ')', .punct '{', .word r, .punct '&', .word v, .punct ';', .punct '}'] =>
    match u.types.lookup p with
    | some (.same (.ptr t)) =>
      if r = "return".toList ∧ u.vars.lookup v = some t ∧ u.vars.lookup f = none then some { u with entry := u.entry ++ [(f, v)] } else none
    | _ => none
  | _ => none

def CUnit.line (u : CUnit) (l : Text) : Option CUnit :=
  if l = "include <wchar.h>".toList then some { u with wchar := true }
  else do
    let m ← cDefine l
    if (u.macros.lookup m.1).all (· = m.2) then some { u with macros := u.macros ++ [m] } else none

def CUnit.step (w : Nat) (u : CUnit) : List CTok → Option CUnit
  | [.directive l] => u.line l
  | .word s :: ts =>
    if s = "typedef".toList then (cTypedef u.wchar u.types ts).map fun t => { u with types := t }
    else if s = "static".toList then u.static w (.word s :: ts)
    else u.func (.word s :: ts)
  | _ => none

def CUnit.empty : CUnit := ⟨false, [], [], [], [], []⟩

/-- The file can be compiled. The name of each static variable occurs in another unit too. -/
def cCompile (w : Nat) (t : Text) : Option CUnit := do
  let ts ← cTokens t
  let units ← cUnits .top ts
  let u ← units.foldlM (CUnit.step w) .empty
  if ∀ v ∈ u.vars, 2 ≤ units.countP fun x => CTok.word v.1 ∈ x then some u else none

end Lulua.Spec
