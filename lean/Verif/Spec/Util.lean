import Verif.Model.Util

/-!
# Specification for the helpers of `util.py`
-/

namespace Lulua.Spec
open Lulua

/-! ### Iterators -/

/-- State after `k` calls of `next`. -/
def after {σ α : Type} (it : Iter σ α) (s : σ) : Nat → σ
  | 0 => s
  | k + 1 => (it (after it s k)).2

/-- What call number `k` (from 0) of `next` does. -/
def result {σ α : Type} (it : Iter σ α) (s : σ) (k : Nat) : Next α := (it (after it s k)).1

def IsItem {α : Type} : Next α → Prop
  | .item _ => True
  | _ => False

/-- The same iterator, counting the calls of `next`. -/
def counted {σ α : Type} (it : Iter σ α) : Iter (σ × Nat) α := fun x => ((it x.1).1, ((it x.1).2, x.2 + 1))

/-! ### Loading -/

/-- What using one source, which has been opened with the result `o`, leads to. -/
inductive Outcome {σ ψ α : Type} (load : σ → Py ψ) (deserialize : ψ → Py α) : Py σ → Py α → Prop where
  | unopened (e : PyErr) : Outcome load deserialize (.error e) (.error e)
  | unparsable {fd : σ} {e : PyErr} : load fd = .error e → Outcome load deserialize (.ok fd) (.error e)
  | read {fd : σ} {y : ψ} : load fd = .ok y → Outcome load deserialize (.ok fd) (deserialize y)

/-- A missing file or one that is not text. -/
def Skipped {α : Type} (r : Py α) : Prop := r = .error .fileNotFound ∨ r = .error .readerError

/-- Sources are tried in order; the first that is not skipped decides. -/
inductive Finds {σ ψ α : Type} (load : σ → Py ψ) (deserialize : ψ → Py α) : List (Py σ) → Py α → Prop where
  | nothing : Finds load deserialize [] (.error .keyError)
  | this {o : Py σ} {os : List (Py σ)} {r : Py α} :
      Outcome load deserialize o r → ¬ Skipped r → Finds load deserialize (o :: os) r
  | next {o : Py σ} {os : List (Py σ)} {r0 r : Py α} :
      Outcome load deserialize o r0 → Skipped r0 → Finds load deserialize os r → Finds load deserialize (o :: os) r

/-! ### Names of format characters -/

/-- The word TO in any case. -/
def IsTo (w : Text) : Prop := (w[0]? = some 'T' ∨ w[0]? = some 't') ∧ (w[1]? = some 'O' ∨ w[1]? = some 'o') ∧ w.length = 2

instance (w : Text) : Decidable (IsTo w) := by unfold IsTo; infer_instance

/-- The words of a name without TO between two words. The word after a TO is always kept. -/
def significant : List Text → List Text
  | w :: t :: x :: rest => if IsTo t then w :: significant (x :: rest) else w :: significant (t :: x :: rest)
  | ws => ws

/-- A name made of `ws`, each followed by a space or a hyphen except the last. -/
inductive NameOf : List Text → Text → Prop where
  | last (w : Text) : NameOf [w] w
  | more {w : Text} {ws : List Text} {n : Text} (c : Char) : (c = ' ' ∨ c = '-') → NameOf ws n →
      NameOf (w :: ws) (w ++ c :: n)

/-- The word characters are so for the database, blanks and hyphens are not. -/
structure PlainWords (u : UniData) (ws : List Text) : Prop where
  word : ∀ w ∈ ws, ∀ c ∈ w, u.word c = true ∧ c ≠ '-'
  nonempty : ∀ w ∈ ws, w ≠ []
  blank : u.word ' ' = false

end Lulua.Spec
