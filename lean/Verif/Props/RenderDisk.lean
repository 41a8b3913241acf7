import Verif.Props.RenderMain

/-!
# C132: What `lulua-render` leaves alone
-/

namespace Lulua.Props
open Lulua Spec

/-- **C132** (any command line, usable or not): if `argparse` stops the program the disk is as before. -/
theorem C132_stopped (w : RenderWorld) (now : Text) (d d' : Disk) (argv : List Text) (s : ArgStop)
    (h : renderMain w now d argv = (d', .stopped s)) : d' = d := by
  unfold renderMain at h
  split at h
  · exact (Prod.mk.inj h).1.symm
  · exact absurd (Prod.mk.inj h).2 (by simp)

/-- **C132** (any command line and any layout): at most one file changes. -/
theorem C132_one_file (w : RenderWorld) (now : Text) (d : Disk) (argv : List Text) :
    ∃ path, ∀ p, p ≠ path → (renderMain w now d argv).1 p = d p := by
  unfold renderMain
  split
  · exact ⟨[], fun _ _ => rfl⟩
  · rename_i ns _
    refine ⟨argText ns "output", fun p hp => ?_⟩
    generalize afterLoading (loadNamed w.toLoadWorld d ns) (renderFormat w now ns) = r
    obtain ⟨f, e⟩ := r
    cases f with
    | none => rfl
    | some t => exact if_neg hp

/-- An unknown format stops the program. -/
example (d : Disk) : ∃ s, renderMain renderWorld [] d ["pdf".toList, "a".toList] = (d, .stopped s) := by
  have h : ∃ s, renderProgram.start renderWorld.args ["pdf".toList, "a".toList] = .error s := by
    cases h : renderProgram.start renderWorld.args ["pdf".toList, "a".toList] with
    | error s => exact ⟨s, rfl⟩
    | ok ns =>
      have h' : (renderProgram.start renderWorld.args ["pdf".toList, "a".toList]).isOk = false := by decide +kernel
      rw [h] at h'
      cases h'
  obtain ⟨s, h⟩ := h
  exact ⟨s, by unfold renderMain; rw [h]⟩

end Lulua.Props
