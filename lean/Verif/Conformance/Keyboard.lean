import Verif.Conformance.Base

/-! # `lulua/test_keyboard.py` and `lulua/test_layout.py` -/

namespace Lulua.Conformance

/-- `test_defaults` (`test_keyboard.py:26-28`). -/
example : passes (do let (_, kb) ← board; .ok (decide (kb.name = "ibmpc105"))) = true := by decide +kernel

/-- `test_keys_unique` (`test_keyboard.py:35-46`). -/
example : passes (do
    let (t, kb) ← board
    let names ← kb.keys.mapM fun b => t.nameOf b.i
    .ok (decide ((kb.keys.map Btn.i).Nodup) && decide names.Nodup)) = true := by decide +kernel

/-- `test_keyboard_getRow` (`test_keyboard.py:48-51`). -/
example : passes (do
    let (t, kb) ← board
    let rows ← ["Bl1", "Cr1", "Dr1"].mapM fun n => do let b ← kb.find t n; kb.getRow b.i
    .ok (decide (rows = [0, 1, 2]))) = true := by decide +kernel

/-- `test_keyboard_getattr` (`test_keyboard.py:53-60`); `__getitem__` is `find`. -/
example : passes (do
    let (t, kb) ← board
    let a ← kb.find t "Cr1"
    let b ← kb.find t "El1"
    .ok (decide (a.i ≠ b.i))) = true ∧
    raises .keyError (do let (t, kb) ← board; kb.find t "nonexistent_button") = true := by decide +kernel

/-- `test_button_uniqname` (`test_keyboard.py:62-83`): `a`, `b` and `a` again. -/
example :
    let x := InternTable.initial.intern "a"
    let y := x.1.intern "b"
    let z := y.1.intern "a"
    z.1.nameOf x.2 = .ok "a" ∧ z.1.nameOf y.2 = .ok "b" ∧ z.1.nameOf z.2 = .ok "a" ∧
      x.2 ≠ y.2 ∧ x.2 = z.2 ∧ y.2 ≠ z.2 ∧
      (Dict.set [] x.2 1).contains x.2 = true ∧ (Dict.set [] x.2 1).contains y.2 = false ∧
      (Dict.set [] x.2 1).contains z.2 = true ∧ ((Dict.set [] x.2 1).set y.2 2).contains y.2 = true := by decide +kernel

/-- `test_serialize` (`test_keyboard.py:90-95`). -/
example : passes (do
    let (t, kb) ← board
    let (d, _) ← kb.serialize t
    .ok (decide (d = Data.ibmpc105))) = true := by decide +kernel

/-- `test_genericlayout_len` (`test_layout.py:43-45`). -/
example : (Data.layouts.all fun d => (GenericLayout.deserialize d).len == (GenericLayout.deserialize d).buttons.length) = true := by
  decide +kernel

/-- `test_layout_serialize` (`test_layout.py:47-49`), with sets listed in reverse. -/
example : (Data.layouts.all fun d =>
    (GenericLayout.deserialize ((GenericLayout.deserialize d).serialize List.reverse)).eq (GenericLayout.deserialize d)) = true := by
  decide +kernel

/-- `test_layout_equality` (`test_layout.py:51-57`). -/
example : (Data.layouts.all fun a => Data.layouts.all fun b =>
    (GenericLayout.deserialize a).eq (GenericLayout.deserialize b) == decide (a.name = b.name)) = true := by
  decide +kernel

/-- `test_layout_text_identity` (`test_layout.py:59-73`) for one layout. -/
def textIdentity (d : LayoutData) : Py Bool := do
  let (_, _, L) ← load d
  let ok ← L.trie.mapM fun e => do
    let texts ← e.2.mapM L.getText
    let (m, cs) ← L.call e.1
    .ok ((texts.all fun t => decide (t = .str e.1)) && decide (m = e.1) &&
      (cs.all fun c => decide (c ∈ e.2)) && e.2.all fun c => decide (c ∈ cs))
  .ok (ok.all id)

example : passes (textIdentity Data.arAlramly) = true := by decide +kernel

/-- `test_layout_isModifier` (`test_layout.py:75-80`). -/
example : passes (do
    let (t, kb, L) ← load Data.arLinux
    let l ← kb.find t "El_shift"
    let r ← kb.find t "Er_shift"
    let b ← kb.find t "Dr1"
    .ok (L.isModifier (frozenset [l.i]) && L.isModifier (frozenset [r.i]) && !L.isModifier (frozenset [b.i]))) = true := by
  decide +kernel

/-- `test_buttoncomb_eq` (`test_layout.py:82-94`), with numbers for the buttons. -/
example :
    let a : Comb := ⟨frozenset [0], frozenset [1]⟩
    let b : Comb := ⟨frozenset [0], frozenset [1]⟩
    let c : Comb := ⟨frozenset [0], frozenset [2]⟩
    a = b ∧ a ≠ c ∧ b ≠ c ∧ (Dict.set [] a 'a').contains b = true ∧ (Dict.set [] a 'a').contains c = false := by
  decide +kernel

end Lulua.Conformance
