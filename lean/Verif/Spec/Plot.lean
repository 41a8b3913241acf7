import Verif.Model.Plot

/-!
# Specification for the data behind plots
-/

namespace Lulua.Spec
open Lulua

/-- The triads that give the texts `tt`. -/
def producing (L : KeyboardLayout) (ts : List (Triad × Nat)) (tt : TextTriad) : List (Triad × Nat) :=
  ts.filter fun t => L.triadText t.1 = .ok tt

/-- How often they occur. -/
def weightOf (ts : List (Triad × Nat)) : Nat := (ts.map Prod.snd).sum

/-- Their effort, `e` being the effort of a triad. -/
def effortSum (e : Triad → Rat) (ts : List (Triad × Nat)) : Rat := (ts.map fun t => (t.2 : Rat) * e t.1).sum

/-- The combinations that give the text `v`. -/
def combsFor (L : KeyboardLayout) (cs : List (Comb × Nat)) (v : LVal) : List (Comb × Nat) :=
  cs.filter fun c => L.getText c.1 = .ok v

/-- A text whose first character is one of those of interest. -/
def IsLetter (letterOther : Char → Bool) (v : LVal) : Prop := ∃ c t, v = .str (c :: t) ∧ letterOther c = true

/-- `l'` is what sorting `l` by `key` gives: the same elements in rising order (falling if `reverse`), those with the same
key in their original order. -/
structure SortedBy {α : Type} (key : α → Rat) (reverse : Bool) (l l' : List α) : Prop where
  perm : l'.Perm l
  sorted : l'.Pairwise fun a b => if reverse then key b ≤ key a else key a ≤ key b
  stable : ∀ k, l'.filter (fun x => key x = k) = l.filter fun x => key x = k

end Lulua.Spec

namespace Lulua.Spec
open Lulua

/-- Rows for all texts `ts` gives, in falling order of weight: text, weight, mean effort. -/
structure RowsOf (L : KeyboardLayout) (e : Triad → Rat) (ts : List (Triad × Nat)) (l : List (TextTriad × Nat × Rat)) : Prop where
  once : (l.map fun r => r.1).Nodup
  texts : ∀ tt, tt ∈ l.map (fun r => r.1) ↔ producing L ts tt ≠ []
  weight : ∀ r ∈ l, r.2.1 = weightOf (producing L ts r.1)
  effort : ∀ r ∈ l, r.2.2 = effortSum e (producing L ts r.1) / weightOf (producing L ts r.1)
  falling : l.Pairwise fun a b => b.2.1 ≤ a.2.1

/-- What `--sort` orders by; `W` is the weight of all triads. -/
def rowKey (W : Nat) : SortBy → TextTriad × Nat × Rat → Rat
  | .weight, r => r.2.1
  | .effort, r => r.2.2
  | .combined, r => (r.2.1 : Rat) / W * (r.2.2 * r.2.2)

/-- Weight of the first `k` rows. -/
def firstWeight (l : List (TextTriad × Nat × Rat)) (k : Nat) : Nat := ((l.take k).map fun r => r.2.1).sum
/-- Effort of the first `k` rows. -/
def firstEffort (l : List (TextTriad × Nat × Rat)) (k : Nat) : Rat := ((l.take k).map fun r => r.2.2 * (r.2.1 : Rat)).sum

end Lulua.Spec
