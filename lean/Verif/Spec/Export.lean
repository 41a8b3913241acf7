import Verif.Spec.Xmodmap
import Verif.Model.Export

/-!
# Specification of the Keyman, AnySoftKeyboard, macOS and Klavaro files
-/

namespace Lulua.Spec
open Lulua

/-- Button `b` of the keyboard has the code `v`. -/
def HasCode (key : String) (kb : PhysicalKeyboard) (b : Button) (v : ScVal) : Prop :=
  ∃ o ∈ kb.keys, o.i = b ∧ codeOf key o = some v

/-- A modifier that Keyman does not know. -/
def CustomModifier (code : String) : Prop := code = "CAPS" ∨ ∃ r, code.toList = 'K' :: '_' :: r

/-- The rule for a key: first the codes of the modifier, in any order, then the one of the key. -/
structure IsRule (kb : PhysicalKeyboard) (m : FSet) (e : Button × LVal) (r : KeymanRule) : Prop where
  codes : ∃ (bs : List Button) (cs : List String) (c : String), bs.Perm m ∧
    List.Forall₂ (fun b c => HasCode "keyman" kb b (.str c)) bs cs ∧ HasCode "keyman" kb e.1 (.str c) ∧ r.codes = cs ++ [c]
  text : ∃ t : Text, e.2 = .str t ∧ List.Forall₂ (fun c s => ∃ h, s = 'U' :: '+' :: h ∧ IsHex4 h c.toNat) t r.text

/-- Two rules apply to the same input. -/
def SameInput (r r' : KeymanRule) : Prop :=
  r.codes.getLast? = r'.codes.getLast? ∧ ∀ c, c ∈ r.codes.dropLast ↔ c ∈ r'.codes.dropLast

/-- The composed text of a button in a layer; a missing one is empty. -/
def IsComposed (nfc : Text → Text) (v : Option LVal) (t : Text) : Prop :=
  (∃ s, v = some (.str s) ∧ t = nfc s) ∨ ((v = none ∨ v = some (.other 0)) ∧ t = [])

/-- Text or nothing. -/
def Composable (v : Option LVal) : Prop := v = none ∨ v = some (.other 0) ∨ ∃ s, v = some (.str s)

/-- A key shows its first text, enters it, and offers the others. -/
structure IsAskKey (nfc : Text → Text) (layers : List Layer) (b : Btn) (k : AskKey) : Prop where
  texts : ∃ (t : Text) (ts : List Text), List.Forall₂ (fun (l : Layer) t => IsComposed nfc (l.layout.get? b.i) t) layers (t :: ts) ∧
    k.label = t ∧ k.popup = ts.flatten ∧ k.hint = (ts.take 2).flatten
  codes : k.codes = k.label.map Char.toNat

/-- The buttons of a row that type and are no modifier. -/
def TypingButtons (layers : List Layer) (r : Row Btn) (bs : List Btn) : Prop :=
  bs.Sublist (r.1 ++ r.2) ∧ ∀ b ∈ r.1 ++ r.2, b ∈ bs ↔ b.kind = .letter ∧ NoModifier layers b.i

/-- Row number `i` of the keyboard. -/
structure IsAskRow (nfc : Text → Text) (layers : List Layer) (rows : List (Row Btn)) (i : Nat) (a : AskRow) : Prop where
  keys : ∃ r bs, rows[i]? = some r ∧ TypingButtons layers r bs ∧ bs ≠ [] ∧ List.Forall₂ (IsAskKey nfc layers) bs a.keys
  width : a.width * a.keys.length = 100
  top : a.top = true ↔ i = 0

/-- The letter buttons of the rows that have one. -/
def typingRows (rows : List (Row Btn)) : List (List Btn) :=
  (rows.map fun r => (r.1 ++ r.2).filter fun x => x.kind = .letter).filter (· ≠ [])

/-- Button `b` has the composed text `t` in layer `i`. -/
def IsCell (nfc : Text → Text) (layers : List Layer) (i : Nat) (b : Btn) (t : Text) : Prop :=
  ∃ l, layers[i]? = some l ∧ IsComposed nfc (l.layout.get? b.i) t

/-- One character per button, a space for none. -/
def IsLine (nfc : Text → Text) (layers : List Layer) (i : Nat) (bs : List Btn) (line : Text) : Prop :=
  List.Forall₂ (fun b c => c ≠ '\n' ∧ (IsCell nfc layers i b [c] ∨ IsCell nfc layers i b [] ∧ c = ' ')) bs line

/-- A file for Klavaro: a line per row for the first layer, then the same for the second one. -/
def KlavaroFile (nfc : Text → Text) (layers : List Layer) (rows : List (Row Btn)) (file : Text) : Prop :=
  ∃ first second : List Text, List.Forall₂ (IsLine nfc layers 0) (typingRows rows) first ∧
    List.Forall₂ (IsLine nfc layers 1) (typingRows rows) second ∧ file = (first ++ second).flatMap (· ++ ['\n'])

end Lulua.Spec
