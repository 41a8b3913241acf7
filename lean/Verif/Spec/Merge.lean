import Verif.Spec.Stats

/-!
# Specification vocabulary for merging
-/

namespace Lulua.Spec
open Lulua

variable {κ α : Type} [DecidableEq κ]

/-- What is found when following a path of keys through nested dicts. -/
def valueAt : NVal κ α → List κ → Option (NVal κ α)
  | v, [] => some v
  | .dict d, k :: p => (Dict.get? d k).bind (fun v => valueAt v p)
  | .leaf _, _ :: _ => none
  | .list _, _ :: _ => none

/-- No dict anywhere inside has a key twice (true of every python dict). -/
def DeepWF (v : NVal κ α) : Prop := ∀ p d, valueAt v p = some (.dict d) → Dict.WF d

/-- How the value at one place must look after merging, given what was there before in both. -/
def MergedAt (op : α → α → α) : Option (NVal κ α) → Option (NVal κ α) → Option (NVal κ α) → Prop
  | none, y, z => z = y
  | some x, none, z => z = some x
  | some (.leaf x), some (.leaf y), z => z = some (.leaf (op x y))
  | some (.dict _), some (.dict _), z => ∃ d, z = some (.dict d)
  | _, _, _ => False

/-- Wherever both have something, both have a dict or both have a leaf. -/
def SameShape (a b : NVal κ α) : Prop :=
  ∀ p x y, valueAt a p = some x → valueAt b p = some y →
    (∃ d e, x = .dict d ∧ y = .dict e) ∨ (∃ u v, x = .leaf u ∧ y = .leaf v)

/-- Addition of counts that may be absent. -/
def addOpt : Option Nat → Option Nat → Option Nat
  | none, y => y
  | x, none => x
  | some x, some y => some (x + y)

/-- Sum of counts that may be absent: absent only if all are. -/
def sumOpt (l : List (Option Nat)) : Option Nat := l.foldr addOpt none

/-- What every statistics object satisfies: its dicts are dicts, and both hands have an entry. -/
structure StatsOk (s : AllStats) : Prop where
  buttons : s.simple.buttons.WF
  combinations : s.simple.combinations.WF
  unknown : s.simple.unknown.WF
  hands : ∀ h, (s.runlen.perHand.get? h).isSome
  perHand : s.runlen.perHand.WF
  lengths : ∀ h d, s.runlen.perHand.get? h = some d → d.WF
  triads : s.triads.triads.WF
  words : s.words.words.WF

/-- Statistics nothing was added to. -/
structure Fresh (s : AllStats) : Prop where
  simple : s.simple = .init
  runlen : s.runlen = .init
  triads : s.triads.triads = []
  words : s.words = .init

/-- Combining in groups: files, or groups that were combined first. -/
inductive Grouping where
  | file (f : AllStats)
  | group (gs : List Grouping)

mutual
/-- The files in a grouping, in order. -/
def Grouping.files : Grouping → List AllStats
  | .file f => [f]
  | .group gs => filesOf gs
def filesOf : List Grouping → List AllStats
  | [] => []
  | g :: gs => g.files ++ filesOf gs
end

mutual
/-- The result of combining a grouping with `lulua-analyze combine`, innermost groups first. -/
def Grouping.result (fresh : AllStats) : Grouping → AllStats
  | .file f => f
  | .group gs => AllStats.combine fresh (resultsOf fresh gs)
def resultsOf (fresh : AllStats) : List Grouping → List AllStats
  | [] => []
  | g :: gs => g.result fresh :: resultsOf fresh gs
end

/-- A dict object without references to other dict objects. -/
def FlatObj (h : Heap κ) (x : Nat) : Prop := ∀ k v, (h x).get? k = some v → ∃ n, v = .leaf n

/-- An object all of whose entries refer to flat objects, given by `child`. -/
structure TwoLevel (h : Heap κ) (x : Nat) (child : κ → Nat) : Prop where
  wf : (h x).WF
  all : ∀ k, (h x).get? k = some (.ref (child k))
  flat : ∀ k, FlatObj h (child k)
  wfChild : ∀ k, (h (child k)).WF

end Lulua.Spec
