import Verif.Props.Pandoc
import Verif.Model.Filters

/-!
# C145: the filter among the others

`Model/Filters.lean` has the whole of `filterMediawikiMarkdown` as a parameter. Here it is given by the two processes.
-/

namespace Lulua.Props

open Lulua Lulua.Pandoc Lulua.Spec.Pandoc

variable {σ : Type} {act : σ → Act σ UInt8} {roomIn roomOut : Nat}

/-- What is left to do when the process has exited: decoding (`text.py:261`) and looking at its status (`text.py:266-269`). -/
def pandocValue (decode : Bytes → Py Text) (out : Bytes) (code : Nat) : Py (Option Text) := do
  let t ← decode out
  .ok (if code = 0 then some t else none)

/-- The parameter `pandoc` of the world is what the program makes of the encoded text, without pipes. -/
def PandocIs (w : FilterWorld) (encode : Text → Bytes) (act : σ → Act σ UInt8) (start : σ) : Prop :=
  ∀ t n out code, Runs act n start (encode t) out code → w.pandoc t = pandocValue w.decode out code

/-- If the program reads first, whatever the pipes and the schedule, the filter of `Model/Filters.lean` is what the two processes end
with: one item if a text was read that can be decoded, none if the program failed, an exception if the text cannot be decoded. -/
theorem C145_filter (hin : 0 < roomIn) (hout : 0 < roomOut) (w : FilterWorld) (encode : Text → Bytes) (start : σ)
    (hw : PandocIs w encode act start) (hf : ReadsFirst act start) (t : Text) (n : Nat) (out : Bytes) (code : Nat)
    (hr : Runs act n start (encode t) out code) (s : State σ UInt8) (h : Reachable act roomIn roomOut (encode t) start s)
    (hs : Stuck act roomIn roomOut s) :
    (∀ x, w.decode out = .ok x →
      (s.parent = .yielded out ∧ w.filter .mediawikimarkdown (.str t) = ⟨[.str x], none⟩) ∨
      (s.parent = .rejected ∧ w.filter .mediawikimarkdown (.str t) = ⟨[], none⟩)) ∧
    ∀ e, w.decode out = .error e → w.filter .mediawikimarkdown (.str t) = ⟨[], some e⟩ := by
  have hp := hw t n out code hr
  constructor
  · intro x hx
    rcases C145_partial hin hout (encode t) start hf n out code hr s h hs with ⟨h0, h1⟩ | ⟨h0, h1⟩
    · refine .inl ⟨h1, ?_⟩
      simp only [FilterWorld.filter, hp, pandocValue, hx, bind, Except.bind, if_pos h0]
      rfl
    · refine .inr ⟨h1, ?_⟩
      simp only [FilterWorld.filter, hp, pandocValue, hx, bind, Except.bind, if_neg h0]
      rfl
  · intro e he
    simp only [FilterWorld.filter, hp, pandocValue, he, bind, Except.bind]

/-- Reads everything and then writes one byte. -/
def oneAct : Bool × Bool → Act (Bool × Bool) UInt8
  | (false, _) => .read fun | some _ => (false, false) | none => (true, false)
  | (true, false) => .write 65 (true, true)
  | (true, true) => .exit 0

theorem one_runs (inp : Bytes) : ∃ n, Runs oneAct n (false, false) inp [65] 0 := by
  induction inp with
  | nil => exact ⟨_, .eof rfl (.write rfl (.exit rfl))⟩
  | cons b inp ih =>
    obtain ⟨n, h⟩ := ih
    exact ⟨_, .read rfl h⟩

/-- There are worlds of this kind, for every way to encode and whatever the other parameters are. -/
example (w : FilterWorld) (encode : Text → Bytes) :
    PandocIs { w with pandoc := fun _ => pandocValue w.decode [65] 0 } encode oneAct (false, false) ∧
      ReadsFirst oneAct (false, false) := by
  refine ⟨fun t n out code h => ?_, fun x => x.1 = false, rfl, ?_⟩
  · obtain ⟨m, hm⟩ := one_runs (encode t)
    obtain ⟨-, rfl, rfl⟩ := runs_unique h hm
    rfl
  · rintro ⟨a, b⟩ rfl
    exact ⟨_, rfl, fun b => rfl⟩

end Lulua.Props
