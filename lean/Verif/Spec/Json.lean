import Verif.Model.Mediawiki

/-!
# Specification vocabulary for JSON strings and XML dumps (after RFC 8259)
-/

namespace Lulua.Spec
open Lulua

/-- `c` is the hexadecimal digit `n`. -/
def JsonHex (c : Char) (n : Nat) : Prop :=
  "0123456789abcdef".toList[n]? = some c ∨ "0123456789ABCDEF".toList[n]? = some c

/-- Four hexadecimal digits. -/
def FourHex (ds : List Char) (n : Nat) : Prop :=
  ∃ a b c d, List.Forall₂ JsonHex ds [a, b, c, d] ∧ n = a * 4096 + b * 256 + c * 16 + d

/-- The two-character escapes. -/
def shortEscapes : List (Char × Char) :=
  [('"', '"'), ('\\', '\\'), ('/', '/'), ('b', '\x08'), ('f', '\x0c'), ('n', '\n'), ('r', '\r'), ('t', '\t')]

/-- What may stand between the quotes for a text. -/
inductive JsonEncodes : Text → Text → Prop where
  | nil : JsonEncodes [] []
  | plain {c e t} : 32 ≤ c.toNat → c ≠ '"' → c ≠ '\\' → JsonEncodes e t → JsonEncodes (c :: e) (c :: t)
  | short {x c e t} : (x, c) ∈ shortEscapes → JsonEncodes e t → JsonEncodes ('\\' :: x :: e) (c :: t)
  | code {ds c e t} : FourHex ds c.toNat → JsonEncodes e t → JsonEncodes ('\\' :: 'u' :: (ds ++ e)) (c :: t)
  | pair {hs ls c hi lo e t} : c.toNat = 0x10000 + hi * 0x400 + lo → lo < 0x400 →
      FourHex hs (0xd800 + hi) → FourHex ls (0xdc00 + lo) → JsonEncodes e t →
      JsonEncodes ('\\' :: 'u' :: (hs ++ '\\' :: 'u' :: (ls ++ e))) (c :: t)

/-- White space of JSON. -/
def JsonBlank (t : Text) : Prop := ∀ c ∈ t, c = ' ' ∨ c = '\t' ∨ c = '\n' ∨ c = '\r'

/-- A node somewhere in a document. -/
inductive Occurs (n : XNode) : List XNode → Prop where
  | here {doc} : n ∈ doc → Occurs n doc
  | inside {doc m cs} : XNode.element m cs ∈ doc → Occurs n cs → Occurs n doc

end Lulua.Spec
