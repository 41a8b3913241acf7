import Verif.Model.Argparse
import Verif.Model.Klc
import Verif.Model.Mediawiki

/-!
# `lulua-import` as a whole: from the words of the command line and the bytes of a file to the layout printed

A file is decoded before it is looked at, while python does so in pieces. This makes a difference only for the kind of the exception if
the file has both wrong bytes and wrong lines. The result is the document printed, not its text.
-/

namespace Lulua

/-- Pairs of bytes; a single byte at the end is an error. -/
def utf16Units (le : Bool) : List UInt8 → Py (List Nat)
  | [] => .ok []
  | [_] => .error .valueError
  | a :: b :: r => do
    let us ← utf16Units le r
    .ok ((if le then a.toNat + 256 * b.toNat else 256 * a.toNat + b.toNat) :: us)

/-- Characters of code units; surrogates have to come in pairs. -/
def utf16Chars : List Nat → Py Text
  | [] => .ok []
  | u :: us =>
    if u < 0xd800 ∨ 0xdfff < u then do
      let t ← utf16Chars us
      .ok (Char.ofNat u :: t)
    else
      match us with
      | [] => .error .valueError
      | v :: vs =>
        if u < 0xdc00 ∧ 0xdc00 ≤ v ∧ v < 0xe000 then do
          let t ← utf16Chars vs
          .ok (Char.ofNat (0x10000 + 1024 * (u - 0xd800) + (v - 0xdc00)) :: t)
        else .error .valueError

/-- What can be read of a file opened with `encoding='utf16'` (`layout.py:347`). Files that are read need a byte order mark
(`encodings/utf_16.py`). `UnicodeError` is a `ValueError`. -/
def decodeUtf16 : List UInt8 → Py Text
  | [] => .ok []
  | 0xff :: 0xfe :: r => do
    let us ← utf16Units true r
    utf16Chars us
  | 0xfe :: 0xff :: r => do
    let us ← utf16Units false r
    utf16Chars us
  | _ => .error .valueError

/-- What `lulua-import` depends on. -/
structure ImportWorld where
  args : ArgWorld
  file : Text → Option (List UInt8)
  isSpace : Char → Bool
  dig : Char → Option Nat
  nfd : Nat → List Nat
  val : List Nat → LVal

/-- `importKlc` (`layout.py:346-350`). -/
def importFile (w : ImportWorld) (ns : Dict String ArgVal) : Py LayoutData :=
  match ns.get? "input" with
  | some (.text f) =>
    match w.file f with
    | none => .error .fileNotFound
    | some b => do
      let t ← decodeUtf16 b
      let layers ← fromKlc w.isSpace w.dig w.nfd (stdinLines t)
      .ok (importKlc w.val layers)
  | _ => .error .typeError

/-- `importFrom` (`layout.py:352-362`); `klc` is the only command. -/
def importMain (w : ImportWorld) (argv : List Text) : Except ArgStop (Py LayoutData) := do
  let ns ← importProgram.start w.args argv
  .ok (importFile w ns)

end Lulua
