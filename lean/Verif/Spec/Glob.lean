import Verif.Py.Core

/-!
# Specification vocabulary for patterns of names
-/

namespace Lulua.Spec

/-- The name matches the pattern: `*` stands for any text, `?` for one character, every other character for itself. -/
inductive Glob : List Char → List Char → Prop where
  | done : Glob [] []
  | many (s : List Char) {p n : List Char} : Glob p n → Glob ('*' :: p) (s ++ n)
  | one (c : Char) {p n : List Char} : Glob p n → Glob ('?' :: p) (c :: n)
  | same {c : Char} {p n : List Char} : c ≠ '*' → c ≠ '?' → Glob p n → Glob (c :: p) (c :: n)

/-- What is used of `fnmatch`: it matches like this unless the pattern has sets of characters. -/
def Globs (fnmatch : String → String → Bool) : Prop :=
  ∀ n p : String, '[' ∉ p.toList → (fnmatch n p = true ↔ Glob p.toList n.toList)

end Lulua.Spec
