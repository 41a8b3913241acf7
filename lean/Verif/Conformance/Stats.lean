import Verif.Conformance.Base
import Verif.Model.Stats
import Verif.Model.Carpalx

/-! # `lulua/test_stats.py` and `lulua/test_carpalx.py` -/

namespace Lulua.Conformance

/-- `test_updateDictOp` (`test_stats.py:30-42`). -/
example : (updateItems (· + ·) [(1, .leaf 3)] [(1, .leaf 11), (7, .leaf 13)] : Py (List (Nat × NVal Nat Nat))) =
    .ok [(1, .leaf (3 + 11)), (7, .leaf 13)] := rfl

example : (updateItems (· + ·) [("foo", .dict [("1", .leaf 3)])] [("foo", .dict [("1", .leaf 7)])] :
    Py (List (String × NVal String Nat))) = .ok [("foo", .dict [("1", .leaf (3 + 7))])] := by rfl

/-- The combination of the tests (`test_stats.py:66-68`). -/
def capsBl1 : Py (InternTable × PhysicalKeyboard × Comb) := do
  let (t, kb, _) ← load Data.arLulua
  let c ← toComb t kb (["Dl_caps"], ["Bl1"])
  .ok (t, kb, c)

/-- `test_simplestats` (`test_stats.py:51-77`); the text of an event does not matter here. -/
example : passes (do
    let (_, _, c) ← capsBl1
    let s1 := SimpleStats.init.process (.skip 'a')
    let s2 := s1.process (.typed [] c)
    .ok (decide (s1.unknown = [('a', 1)]) && s1.combinations.isEmpty && s1.buttons.isEmpty &&
      (c.iter.all fun b => s2.buttons.count b == 1) && s2.combinations.count c == 1 &&
      decide (s2.unknown = [('a', 1)]) && decide (SimpleStats.init.update s2 = s2))) = true := by decide +kernel

/-- Number of triads and of `(comb, comb, comb)`. -/
def triadsAfter (evs : Comb → List Event) : Py (Nat × Nat) := do
  let (t, kb, c) ← capsBl1
  let s ← TriadStats.init t kb
  let s ← (evs c).foldlM TriadStats.process s
  .ok (s.triads.length, s.triads.count (c, c, c))

/-- `test_triadstats` (`test_stats.py:79-111`), the state after each part. -/
example :
    triadsAfter (fun _ => []) = .ok (0, 0) ∧
    triadsAfter (fun _ => [.skip 'a']) = .ok (0, 0) ∧
    triadsAfter (fun c => .skip 'a' :: List.replicate 3 (.typed [] c)) = .ok (1, 1) ∧
    triadsAfter (fun c => .skip 'a' :: List.replicate 4 (.typed [] c)) = .ok (1, 2) ∧
    triadsAfter (fun c => .skip 'a' :: List.replicate 4 (.typed [] c) ++ [.skip 'a']) = .ok (1, 2) ∧
    triadsAfter (fun c => .skip 'a' :: List.replicate 4 (.typed [] c) ++ .skip 'a' :: List.replicate 2 (.typed [] c)) =
      .ok (1, 2) ∧
    triadsAfter (fun c => .skip 'a' :: List.replicate 4 (.typed [] c) ++ .skip 'a' :: List.replicate 3 (.typed [] c)) =
      .ok (1, 3) := by decide +kernel

/-- `strokePathData` (`test_carpalx.py:28-92`): buttons, part of the stroke path and its class. -/
def strokePathData : List ((String × String × String) × Nat × Nat) :=
  [(("Dl1", "Dl3", "Dr7"), 0, 0), (("Dl1", "Dr7", "Cr7"), 0, 0), (("Dr1", "Dl5", "Cl1"), 0, 0),
   (("Dl1", "Dr7", "Cl1"), 0, 1), (("Dr1", "Bl1", "Cr1"), 0, 1),
   (("Dr1", "Br1", "Cr1"), 0, 2), (("Dl1", "Bl1", "Cl1"), 0, 2),
   (("Dl1", "Dl3", "Dr7"), 1, 0),
   (("Dl3", "Dl1", "Er4"), 1, 1), (("Cl3", "Dl1", "Dr4"), 1, 1), (("Cl1", "Cl2", "El1"), 1, 1),
   (("Dl1", "Dl1", "Cr5"), 1, 2), (("El1", "El1", "Cr5"), 1, 2),
   (("El6", "Dl1", "Er4"), 1, 3),
   (("Cl3", "Dl3", "Er4"), 1, 4), (("Bl3", "Dl3", "Er4"), 1, 4),
   (("Dl1", "Cl3", "El6"), 1, 5), (("Dr7", "Cl3", "Er5"), 1, 5), (("Bl1", "Dl3", "Bl1"), 1, 5),
   (("El6", "Dl3", "Cl1"), 1, 6), (("El6", "Cl3", "Bl1"), 1, 6),
   (("Dl1", "El6", "Cr6"), 1, 7), (("Dl1", "El3", "Cl3"), 1, 7),
   (("Dl1", "Dl2", "Dl3"), 2, 0), (("Cr3", "Cr6", "Dl1"), 2, 0),
   (("Dl1", "Dl1", "Dl3"), 2, 1), (("Dl1", "Dl2", "Dl2"), 2, 1), (("Cr3", "Cr4", "Cr4"), 2, 1), (("Er4", "Er4", "Cl1"), 2, 1),
   (("El6", "Cr5", "Dr7"), 2, 2), (("Dl4", "Dl1", "Dl3"), 2, 2),
   (("Cr7", "Dl1", "Dr5"), 2, 3), (("Er5", "Cl3", "Cr3"), 2, 3),
   (("Dr5", "Cl4", "Cr5"), 2, 4), (("Er4", "Dl1", "Dr6"), 2, 4), (("Dl1", "El6", "El2"), 2, 4), (("Dl1", "Dl2", "Dl1"), 2, 4),
   (("Dl1", "Dl3", "Dl1"), 2, 4),
   (("El4", "Cl3", "Cl3"), 2, 5), (("Dr4", "Dr4", "Cr4"), 2, 5), (("El6", "Cl4", "El6"), 2, 5),
   (("Dl1", "El6", "Cl4"), 2, 6), (("El6", "Dl3", "Cl3"), 2, 6), (("El6", "El5", "El2"), 2, 6),
   (("Cl5", "Dl4", "El6"), 2, 7), (("Dl3", "Cl3", "El4"), 2, 7)]

/-- `test_strokePath` (`test_carpalx.py:95-102`) of all rows. -/
def strokePaths : Py Bool := do
  let (t, kb) ← board
  let env : CarpalxEnv := ⟨Data.mod01, fingers t, t.nameOf, kb.getRow⟩
  let ok ← strokePathData.mapM fun x => do
    let a ← kb.find t x.1.1
    let b ← kb.find t x.1.2.1
    let c ← kb.find t x.1.2.2
    let p ← env.strokePath (a.i, b.i, c.i)
    .ok (decide ([p.1, p.2.1, p.2.2][x.2.1]? = some (x.2.2 : Rat)))
  .ok (ok.all id)

example : passes strokePaths = true := by decide +kernel

end Lulua.Conformance
