import Verif.Py.Core

/-!
# Specification: UTF-16

After the Unicode standard, section 3.9 and 3.10.
-/

namespace Lulua.Spec
open Lulua

/-- Code units of a character. -/
def utf16Char (c : Char) : List Nat :=
  if c.toNat < 0x10000 then [c.toNat] else [0xd800 + (c.toNat - 0x10000) / 1024, 0xdc00 + (c.toNat - 0x10000) % 1024]

/-- Bytes of a code unit, for little endian or big endian. -/
def utf16Bytes (le : Bool) (u : Nat) : List UInt8 :=
  if le then [UInt8.ofNat (u % 256), UInt8.ofNat (u / 256)] else [UInt8.ofNat (u / 256), UInt8.ofNat (u % 256)]

/-- A text. -/
def utf16 (le : Bool) (t : Text) : List UInt8 := (t.flatMap utf16Char).flatMap (utf16Bytes le)

/-- A file with a byte order mark. -/
def utf16File (le : Bool) (t : Text) : List UInt8 := utf16Bytes le 0xfeff ++ utf16 le t

end Lulua.Spec
