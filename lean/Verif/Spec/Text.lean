import Verif.Model.Text
import Verif.Spec.Stats

/-!
# Specification vocabulary for text handling
-/

namespace Lulua.Spec
open Lulua

/-- The pair CR LF. -/
def crlf : Text := ['\r', '\n']

/-- How often CR LF occurs. -/
def crlfCount (t : Text) : Nat := occurrences crlf t

/-- Pieces of text put together with a separator between them. -/
def joinWith (sep : Text) : List Text → Text
  | [] => []
  | [s] => s
  | s :: ss => s ++ sep ++ joinWith sep ss

/-- A text can be processed without exception. -/
def TextOk (su : Setup) (t : Text) : Prop := ∃ s, textStats su t = .ok s

/-- An item can be extracted and all its texts be processed without exception. -/
def ItemOk {ι : Type} (su : Setup) (extract : ι → Gen Text) (i : ι) : Prop :=
  (extract i).error = none ∧ ∀ t ∈ (extract i).items, TextOk su t

/-- The results of several workers, each with the items it took, in the order they arrive; workers
without a text write nothing. -/
def written {ι : Type} (su : Setup) (extract : ι → Gen Text) : List (List ι) → Py (List AllStats)
  | [] => .ok []
  | p :: ps =>
    match writeWorker su extract p, written su extract ps with
    | .error e, _ => .error e
    | .ok _, .error e => .error e
    | .ok none, .ok rs => .ok rs
    | .ok (some r), .ok rs => .ok (r :: rs)

end Lulua.Spec
