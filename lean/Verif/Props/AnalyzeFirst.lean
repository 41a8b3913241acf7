import Verif.Props.AnalyzeMain

/-!
# C135: Statistics that are not combined
-/

namespace Lulua.Props
open Lulua Spec

theorem analyze_first {w : AnalyzeWorld} {d : Disk} {p p' : Pickles} {ns : Dict String ArgVal}
    (hf : ns.get? "func" ≠ some (.func "combine")) (h : p.first = p'.first) : analyze w d p ns = analyze w d p' ns := by
  unfold analyze
  split
  · rename_i f hn
    have hc : f ≠ "combine" := by
      rintro rfl
      exact hf hn
    rw [if_neg hc, if_neg hc, h]
  · rfl

/-- **C135** is false for statistics in several parts, as `lulua-write` with several processes writes them: all commands but `combine` look
at the first part only. What follows it does not matter, not even if it cannot be read, and there is no message. -/
theorem C135_parts_false (w : AnalyzeWorld) (hu : PlainNum w.args.uni) (d : Disk) (os : List CommonOpt) (hos : ∀ o ∈ os, o.Good)
    (ts : List TriadOpt) (hts : ∀ o ∈ ts, o.Good w.args) (s : AllStats) (rest rest' : List AllStats) (e e' : Option PyErr) (c : String)
    (hc : c ∈ ["pretty", "keyheatmap", "layoutstats", "letterfreq", "triadeffortdata"] ∧ ts = [] ∨ c = "triadfreq") :
    analyzeMain w d ⟨s :: rest, e⟩ (analyzeWords os c ts) = analyzeMain w d ⟨s :: rest', e'⟩ (analyzeWords os c ts) := by
  have main : ∀ ns, analyzeProgram.start w.args (analyzeWords os c ts) = .ok ns → ns.get? "func" ≠ some (.func "combine") →
      analyzeMain w d ⟨s :: rest, e⟩ (analyzeWords os c ts) = analyzeMain w d ⟨s :: rest', e'⟩ (analyzeWords os c ts) := by
    intro ns h1 h2
    simp only [analyzeMain, h1, bind_ok]
    rw [analyze_first h2 (p := ⟨s :: rest, e⟩) (p' := ⟨s :: rest', e'⟩) rfl]
  rcases hc with ⟨hc, rfl⟩ | rfl
  · have key : ∀ f, (c, f) ∈ analyses → f ≠ "combine" →
        analyzeMain w d ⟨s :: rest, e⟩ (analyzeWords os c []) = analyzeMain w d ⟨s :: rest', e'⟩ (analyzeWords os c []) := by
      intro f h hf
      obtain ⟨ns, h1, h2, _⟩ := analyze_attrs w.args hos h
      refine main ns h1 ?_
      rw [h2]
      simpa using hf
    simp only [List.mem_cons, List.not_mem_nil, or_false] at hc
    rcases hc with rfl | rfl | rfl | rfl | rfl
    · exact key "pretty" (by simp [analyses]) (by decide)
    · exact key "keyHeatmap" (by simp [analyses]) (by decide)
    · exact key "layoutstats" (by simp [analyses]) (by decide)
    · exact key "letterfreq" (by simp [analyses]) (by decide)
    · exact key "triadEffortData" (by simp [analyses]) (by decide)
  · obtain ⟨ns, b1, b2, _⟩ := triad_attrs w.args hu hos hts
    refine main ns b1 ?_
    rw [b2]
    simp

/-- **C135** (nothing to read): the commands end with an exception, the one that made reading impossible if there was one. -/
theorem C135_nothing (w : AnalyzeWorld) (d : Disk) (os : List CommonOpt) (hos : ∀ o ∈ os, o.Good) (e : Option PyErr) (c : String)
    (hc : c ∈ ["pretty", "keyheatmap", "layoutstats", "letterfreq", "triadeffortdata"]) :
    ∃ e', analyzeMain w d ⟨[], e⟩ (analyzeWords os c []) = .ok (.error e') ∧ ∀ x, e = some x → e' = x := by
  cases e with
  | none => exact ⟨_, C135_unreadable w d os hos ⟨[], none⟩ _ rfl c hc, by simp⟩
  | some x => exact ⟨x, C135_unreadable w d os hos ⟨[], some x⟩ x rfl c hc, fun _ h => Option.some.inj h⟩

/-- Two parts with two presses each: the second does not matter, nor does an exception while reading a third. -/
example : analyzeMain demoAnalyzeWorld (fun _ => none) ⟨[twoPresses, twoPresses], some .valueError⟩ (analyzeWords withLayout "keyheatmap" []) =
      analyzeMain demoAnalyzeWorld (fun _ => none) ⟨[twoPresses], none⟩ (analyzeWords withLayout "keyheatmap" []) ∧
    ∃ e, analyzeMain demoAnalyzeWorld (fun _ => none) ⟨[], some .valueError⟩ (analyzeWords withLayout "pretty" []) = .ok (.error e) :=
  ⟨C135_parts_false _ argWorld_plain _ withLayout withLayout_good [] (by simp) twoPresses [twoPresses] [] _ _ _ (.inl ⟨by simp, rfl⟩),
    (C135_nothing _ _ withLayout withLayout_good _ _ (by simp)).imp fun _ h => h.1⟩

end Lulua.Props
