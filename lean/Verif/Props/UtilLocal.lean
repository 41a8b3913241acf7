import Verif.Props.Util

/-!
# C57: Files in the working directory that are in the way
-/

namespace Lulua.Props
open Lulua Spec

/-- **C57** is false as stated: if there is something of that name in the working directory which can be opened but not decoded
(`UnicodeDecodeError`), or not opened at all, like a directory (`IsADirectoryError`), the exception ends the search, and the packaged
resource is not used. -/
theorem C57_false {σ ψ α : Type} (w : YamlWorld σ ψ α) (dir k : String) (e : PyErr) (h1 : e ≠ .fileNotFound) (h2 : e ≠ .readerError)
    (h : w.openFile k = .error e ∨ ∃ fd, w.openFile k = .ok fd ∧ (w.load fd = .error e ∨ ∃ y, w.load fd = .ok y ∧ w.deserialize y = .error e)) :
    w.getitem dir k false = .error e := by
  rw [C57_order]
  have hs : ¬ Skipped (.error e : Py α) := by
    rintro (h | h)
    · exact h1 (Except.error.inj h)
    · exact h2 (Except.error.inj h)
  refine .this ?_ hs
  rcases h with h | ⟨fd, h, h3 | ⟨y, h3, h4⟩⟩
  · rw [h]; exact .unopened e
  · rw [h]; exact .unparsable h3
  · rw [h, ← h4]; exact .read h3

/-- **C57** (partial: if whatever is in the working directory under that name is missing or skipped): the packaged resources are used as if
nothing were there. -/
theorem C57_package_partial {σ ψ α : Type} (w : YamlWorld σ ψ α) (dir k : String)
    (h : w.openFile k = .error .fileNotFound ∨ w.openFile k = .error .readerError ∨
      ∃ fd, w.openFile k = .ok fd ∧ w.load fd = .error .readerError) :
    w.getitem dir k false = w.getitem dir k true := by
  unfold YamlWorld.getitem YamlWorld.openers
  rw [if_neg (by simp), if_pos rfl, List.singleton_append, List.nil_append]
  conv_lhs => rw [YamlWorld.tryAll]
  rcases h with h | h | ⟨fd, h, h3⟩
  · rw [h]; rfl
  · rw [h]; rfl
  · rw [h]
    simp only [bind, Except.bind, h3]

/-- **C57** (with `onlyRes`): the working directory does not matter. -/
theorem C57_only_package {σ ψ α : Type} (w : YamlWorld σ ψ α) (openFile : String → Py σ) (dir k : String) :
    ({ w with openFile } : YamlWorld σ ψ α).getitem dir k true = w.getitem dir k true := by
  have : ∀ fs, ({ w with openFile } : YamlWorld σ ψ α).tryAll k fs = w.tryAll k fs := by
    intro fs
    induction fs with
    | nil => rfl
    | cons f fs ih =>
      rw [YamlWorld.tryAll, YamlWorld.tryAll]
      simp only [ih]
  unfold YamlWorld.getitem
  rw [this]
  rfl

/-- A directory called like a packaged resource, and a file that is no text. -/
def blockedWorld : YamlWorld Nat Nat Nat where
  openFile k := if k = "ar-lulua" then .error .otherError else if k = "null" then .ok 0 else .error .fileNotFound
  openResource _ := .ok 2
  listdir _ := .ok []
  load n := if n = 0 then .error .valueError else .ok n
  deserialize n := .ok (n * 10)

example : blockedWorld.getitem "data" "ar-lulua" false = .error .otherError ∧ blockedWorld.getitem "data" "null" false = .error .valueError ∧
    blockedWorld.getitem "data" "ar-lulua" true = .ok 20 ∧ blockedWorld.getitem "data" "x" false = .ok 20 :=
  ⟨C57_false _ _ _ _ (by simp) (by simp) (.inl rfl), C57_false _ _ _ _ (by simp) (by simp) (.inr ⟨0, rfl, .inl rfl⟩), by decide +kernel,
    (C57_package_partial _ _ _ (.inl rfl)).trans (by decide +kernel)⟩

end Lulua.Props
