import Verif.Model.Optimize
import Verif.Spec.Typing
import Mathlib.Algebra.BigOperators.Group.List.Basic

/-!
# Specification vocabulary for the optimizer
-/

namespace Lulua.Spec
open Lulua

/-- A one-to-one map from its positions onto the same positions. -/
def Permutes (bm : ButtonMap) : Prop := bm.WF ∧ (bm.map Prod.snd).Perm (bm.map Prod.fst)

/-- Moving a combination: the only button `b` of a combination of layer `i` goes where the map sends `(i, b)`, and is
pressed with the first modifier of its new layer. -/
def Moves (layers : List Layer) (bm : ButtonMap) (c c' : Comb) : Prop :=
  ∃ i l b j l' b' m, layers[i]? = some l ∧ c.modifier ∈ l.modifier ∧ c.buttons = [b] ∧ bm.get? (i, b) = some (j, b') ∧
    layers[j]? = some l' ∧ l'.modifier.head? = some m ∧ c' = ⟨m, [b']⟩

/-- A triad with its combinations moved. -/
def MovesTriad (layers : List Layer) (bm : ButtonMap) (t t' : Triad) : Prop :=
  Moves layers bm t.1 t'.1 ∧ Moves layers bm t.2.1 t'.2.1 ∧ Moves layers bm t.2.2 t'.2.2

/-- `v` is the effort of a layout changed by a button map: the weighted mean of the efforts of its moved triads. -/
def EffortOf (env : CarpalxEnv) (layers : List Layer) (bm : ButtonMap) (triads : List (Triad × Rat)) (v : Rat) : Prop :=
  ∃ es : List Rat,
    List.Forall₂ (fun x e => ∃ t', MovesTriad layers bm x.1 t' ∧ env.triadEffort t' = .ok e) triads es ∧
    v = (List.zipWith (fun x e => x.2 * e) triads es).sum / (triads.map Prod.snd).sum

/-- A swap that no pin forbids, when every text of a pinned layer is still on it. -/
def Swappable (pins : List (Nat × Option Button)) (a b : Pos) : Prop :=
  a ≠ b ∧ (a.1, some a.2) ∉ pins ∧ (b.1, some b.2) ∉ pins ∧
    (a.1 ≠ b.1 → (a.1, none) ∉ pins ∧ (b.1, none) ∉ pins)

/-- Every text of a pinned layer is on that layer. -/
def LayersKept (pins : List (Nat × Option Button)) (bm : ButtonMap) : Prop :=
  ∀ e ∈ bm, (e.1.1, none) ∈ pins → e.2.1 = e.1.1

/-- `s'` is reached from `s` by mutations. -/
inductive Mutated (O : Optimizer) : OptState → OptState → Prop where
  | refl (s : OptState) : Mutated O s s
  | step {s s1 s2 : OptState} {ds ds' : List (Pos × Pos)} {d : Rat} :
      Mutated O s s1 → O.mutate s1 ds = .ok (d, s2, ds') → Mutated O s s2

/-- Where a position goes: positions the map does not mention stay. -/
def target (bm : ButtonMap) (p : Pos) : Pos := (bm.get? p).getD p

/-- What a layout has at a position. -/
def textAt (layers : List Layer) (p : Pos) : Option LVal := layers[p.1]?.bind fun l => l.layout.get? p.2

/-- What a generic layout has at a layer and a button name. -/
def gTextAt (layers : List GLayer) (j : Nat) (n : String) : Option LVal := layers[j]?.bind fun g => g.layout.get? n

/-- Only positions on the keyboard are mapped. -/
def OnBoard (layers : List Layer) (kb : PhysicalKeyboard) (bm : ButtonMap) : Prop :=
  ∀ p ∈ bm.map Prod.fst, p.1 < layers.length ∧ p.2 ∈ kb.keys.map Btn.i

/-- A position the optimizer may change: a letter key that is not a modifier, in any layer. -/
def Movable (layers : List Layer) (kb : PhysicalKeyboard) (p : Pos) : Prop :=
  p.1 < layers.length ∧ ∃ k ∈ kb.keys, k.i = p.2 ∧ k.kind = .letter ∧ ∀ l ∈ layers, [p.2] ∉ l.modifier

/-- A combination of a single key at such a position. -/
def AtMovable (layers : List Layer) (kb : PhysicalKeyboard) (c : Comb) : Prop :=
  ∃ i l b, layers[i]? = some l ∧ c.modifier ∈ l.modifier ∧ c.buttons = [b] ∧ Movable layers kb (i, b)

end Lulua.Spec
