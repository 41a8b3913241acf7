import Verif.Spec.Pandoc

/-! # C145: a filter that is another process -/

namespace Lulua.Props

open Lulua.Pandoc Lulua.Spec.Pandoc

variable {σ β : Type} {act : σ → Act σ β} {roomIn roomOut : Nat}

/-- A program does one thing. -/
theorem runs_unique {n n' : Nat} {s : σ} {inp out out' : List β} {c c' : Nat} (h : Runs act n s inp out c)
    (h' : Runs act n' s inp out' c') : n = n' ∧ out = out' ∧ c = c' := by
  induction h generalizing n' out' c' with
  | exit e =>
    cases h' with
    | exit e' => rw [e] at e'; cases e'; exact ⟨rfl, rfl, rfl⟩
    | write e' _ => rw [e] at e'; cases e'
    | read e' _ => rw [e] at e'; cases e'
    | eof e' _ => rw [e] at e'; cases e'
  | write e _ ih =>
    cases h' with
    | exit e' => rw [e] at e'; cases e'
    | write e' h2 =>
      rw [e] at e'; cases e'
      obtain ⟨rfl, rfl, rfl⟩ := ih h2
      exact ⟨rfl, rfl, rfl⟩
    | read e' _ => rw [e] at e'; cases e'
    | eof e' _ => rw [e] at e'; cases e'
  | read e _ ih =>
    cases h' with
    | exit e' => rw [e] at e'; cases e'
    | write e' _ => rw [e] at e'; cases e'
    | read e' h2 =>
      rw [e] at e'; cases e'
      obtain ⟨rfl, rfl, rfl⟩ := ih h2
      exact ⟨rfl, rfl, rfl⟩
  | eof e _ ih =>
    cases h' with
    | exit e' => rw [e] at e'; cases e'
    | write e' _ => rw [e] at e'; cases e'
    | eof e' h2 =>
      rw [e] at e'; cases e'
      obtain ⟨rfl, rfl, rfl⟩ := ih h2
      exact ⟨rfl, rfl, rfl⟩

/-- What the other process does from now on completes what the program does with the text. -/
private def Completes (act : σ → Act σ β) (start : σ) (text inp rest got out : List β) : Child σ → Prop
  | .alive x => ∀ n o c, Runs act n x (inp ++ rest) o c → ∃ m, Runs act m start text (got ++ out ++ o) c
  | .exited code => ∃ m, Runs act m start text (got ++ out) code

private def Inv (act : σ → Act σ β) (start : σ) (text : List β) (s : State σ β) : Prop :=
  match s.parent with
  | .writing rest => s.isOpen = true ∧ Completes act start text s.inp rest [] s.out s.child
  | .reading got => s.isOpen = false ∧ Completes act start text s.inp [] got s.out s.child
  | .waiting got => s.out = [] ∧ ∃ code, s.child = .exited code ∧ ∃ n, Runs act n start text got code
  | .yielded t => ∃ n, Runs act n start text t 0
  | .rejected => ∃ n out c, c ≠ 0 ∧ Runs act n start text out c
  | .brokenPipe => True

private theorem inv_step {start : σ} {text : List β} {s t : State σ β} (hi : Inv act start text s)
    (h : Step act roomIn roomOut s t) : Inv act start text t := by
  cases h with
  | write _ =>
    obtain ⟨h1, h2⟩ := hi
    refine ⟨h1, fun n o c hr => h2 n o c ?_⟩
    simpa using hr
  | broken => trivial
  | @close inp o out c =>
    obtain ⟨h1, h2⟩ := hi
    exact ⟨rfl, h2⟩
  | @read got inp o b out c =>
    obtain ⟨h1, h2⟩ := hi
    refine ⟨h1, ?_⟩
    cases c with
    | alive x =>
      intro n o c hr
      obtain ⟨m, hm⟩ := h2 n o c hr
      exact ⟨m, by simpa using hm⟩
    | exited code =>
      obtain ⟨m, hm⟩ := h2
      exact ⟨m, by simpa using hm⟩
  | @readEnd got inp o code =>
    obtain ⟨h1, m, hm⟩ := hi
    exact ⟨rfl, code, rfl, m, by simpa using hm⟩
  | accept =>
    obtain ⟨h1, code, h2, h3⟩ := hi
    cases h2
    exact h3
  | reject hc =>
    obtain ⟨h1, code, h2, n, h3⟩ := hi
    cases h2
    exact ⟨n, _, _, hc, h3⟩
  | @childRead p b inp o out s next ha =>
    cases p with
    | writing rest => exact ⟨hi.1, fun n o c hr => hi.2 (n + 1) o c (.read ha hr)⟩
    | reading got => exact ⟨hi.1, fun n o c hr => hi.2 (n + 1) o c (.read ha hr)⟩
    | waiting got => obtain ⟨_, _, h, _⟩ := hi; cases h
    | yielded t => exact hi
    | rejected => exact hi
    | brokenPipe => trivial
  | @childEnd p out s next ha =>
    cases p with
    | writing rest => exact absurd hi.1 (by simp)
    | reading got => exact ⟨hi.1, fun n o c hr => hi.2 (n + 1) o c (.eof ha hr)⟩
    | waiting got => obtain ⟨_, _, h, _⟩ := hi; cases h
    | yielded t => exact hi
    | rejected => exact hi
    | brokenPipe => trivial
  | @childWrite p inp o out s b next ha _ =>
    cases p with
    | writing rest =>
      refine ⟨hi.1, fun n o c hr => ?_⟩
      obtain ⟨m, hm⟩ := hi.2 (n + 1) _ c (.write ha hr)
      exact ⟨m, by simpa using hm⟩
    | reading got =>
      refine ⟨hi.1, fun n o c hr => ?_⟩
      obtain ⟨m, hm⟩ := hi.2 (n + 1) _ c (.write ha hr)
      exact ⟨m, by simpa using hm⟩
    | waiting got => obtain ⟨_, _, h, _⟩ := hi; cases h
    | yielded t => exact hi
    | rejected => exact hi
    | brokenPipe => trivial
  | @childExit p inp o out s code ha =>
    cases p with
    | writing rest =>
      obtain ⟨m, hm⟩ := hi.2 1 [] code (.exit ha)
      exact ⟨hi.1, m, by simpa using hm⟩
    | reading got =>
      obtain ⟨m, hm⟩ := hi.2 1 [] code (.exit ha)
      exact ⟨hi.1, m, by simpa using hm⟩
    | waiting got => obtain ⟨_, _, h, _⟩ := hi; cases h
    | yielded t => exact hi
    | rejected => exact hi
    | brokenPipe => trivial

private theorem inv {start : σ} {text : List β} {n : Nat} {s : State σ β}
    (h : Steps act roomIn roomOut n (State.init text start) s) : Inv act start text s := by
  generalize hs : State.init text start = s0 at h
  induction h with
  | refl => subst hs; exact ⟨rfl, fun n o c hr => ⟨n, by simpa [State.init] using hr⟩⟩
  | tail _ h2 ih => exact inv_step (ih hs) h2

/-- Whatever the program, the schedule and the room in the pipes: a text the filter yields is all that the program writes for the text
given to it, and it has exited with zero; if the filter yields nothing, it has exited with something else. -/
theorem C145_result (text : List β) (start : σ) (s : State σ β) (h : Reachable act roomIn roomOut text start s) :
    (∀ t, s.parent = .yielded t → ∃ n, Runs act n start text t 0) ∧
    (s.parent = .rejected → ∃ n out c, c ≠ 0 ∧ Runs act n start text out c) := by
  obtain ⟨n, h⟩ := h
  have hi := inv h
  unfold Inv at hi
  constructor
  · intro t ht
    rw [ht] at hi
    exact hi
  · intro ht
    rw [ht] at hi
    exact hi

/-- While the filter writes, a program that reads first is reading. -/
private def Reads (R : σ → Prop) (s : State σ β) : Prop :=
  match s.parent with
  | .writing _ => s.isOpen = true ∧ ∃ x, s.child = .alive x ∧ R x
  | .brokenPipe => False
  | _ => True

private theorem reads_step {R : σ → Prop} (hR : ∀ x, R x → ∃ next, act x = .read next ∧ ∀ b, R (next (some b))) {s t : State σ β}
    (hi : Reads R s) (h : Step act roomIn roomOut s t) : Reads R t := by
  cases h with
  | write _ => exact hi
  | broken => obtain ⟨_, x, h, _⟩ := hi; cases h
  | close => trivial
  | read => trivial
  | readEnd => trivial
  | accept => trivial
  | reject _ => trivial
  | @childRead p b inp o out s next ha =>
    cases p with
    | writing rest =>
      obtain ⟨h1, x, h, hx⟩ := hi
      cases h
      obtain ⟨nx, h2, h3⟩ := hR _ hx
      rw [ha] at h2; cases h2
      exact ⟨h1, _, rfl, h3 b⟩
    | brokenPipe => exact hi
    | _ => trivial
  | @childEnd p out s next ha =>
    cases p with
    | writing rest => exact absurd hi.1 (by simp)
    | brokenPipe => exact hi
    | _ => trivial
  | @childWrite p inp o out s b next ha _ =>
    cases p with
    | writing rest =>
      obtain ⟨_, x, h, hx⟩ := hi
      cases h
      obtain ⟨nx, h2, _⟩ := hR _ hx
      rw [ha] at h2; cases h2
    | brokenPipe => exact hi
    | _ => trivial
  | @childExit p inp o out s code ha =>
    cases p with
    | writing rest =>
      obtain ⟨_, x, h, hx⟩ := hi
      cases h
      obtain ⟨nx, h2, _⟩ := hR _ hx
      rw [ha] at h2; cases h2
    | brokenPipe => exact hi
    | _ => trivial

/-- **C145** (partial: for programs that read all of their input before they write): the filter ends with what the program writes, or
without a text if it exits with something but zero, however small the pipes are. -/
theorem C145_partial (hin : 0 < roomIn) (hout : 0 < roomOut) (text : List β) (start : σ) (hf : ReadsFirst act start) (n : Nat)
    (out : List β) (code : Nat) (hr : Runs act n start text out code) (s : State σ β)
    (h : Reachable act roomIn roomOut text start s) (hs : Stuck act roomIn roomOut s) :
    (code = 0 ∧ s.parent = .yielded out) ∨ (code ≠ 0 ∧ s.parent = .rejected) := by
  obtain ⟨R, hR0, hR⟩ := hf
  obtain ⟨k, h⟩ := h
  have hi := inv h
  have hq : Reads R s := by
    generalize hs0 : State.init text start = s0 at h
    clear hi hs hr
    induction h with
    | refl => subst hs0; exact ⟨rfl, start, rfl, hR0⟩
    | tail _ h2 ih => exact reads_step hR (ih hs0) h2
  obtain ⟨p, inp, o, pipe, c⟩ := s
  cases p with
  | writing rest =>
    exfalso
    obtain ⟨_, x, hx, hx'⟩ := hq
    dsimp only at hx
    subst hx
    cases rest with
    | nil => exact hs _ .close
    | cons b rest =>
      by_cases hl : inp.length < roomIn
      · exact hs _ (.write hl)
      · cases inp with
        | nil => simp at hl; omega
        | cons y inp =>
          obtain ⟨next, ha, _⟩ := hR x hx'
          exact hs _ (.childRead ha)
  | reading got =>
    exfalso
    cases pipe with
    | cons b pipe => exact hs _ .read
    | nil =>
      cases c with
      | exited code => exact hs _ .readEnd
      | alive x =>
        obtain ⟨ho, -⟩ := hi
        dsimp only at ho
        subst ho
        cases ha : act x with
        | read next =>
          cases inp with
          | nil => exact hs _ (.childEnd ha)
          | cons y inp => exact hs _ (.childRead ha)
        | write b next => exact hs _ (.childWrite ha (by simpa using hout))
        | exit code => exact hs _ (.childExit ha)
  | waiting got =>
    exfalso
    obtain ⟨_, code, hc, _⟩ := hi
    dsimp only at hc
    subst hc
    by_cases h0 : code = 0
    · subst h0; exact hs _ .accept
    · exact hs _ (.reject h0)
  | yielded t =>
    obtain ⟨m, hm⟩ := hi
    obtain ⟨-, rfl, rfl⟩ := runs_unique hr hm
    exact .inl ⟨rfl, rfl⟩
  | rejected =>
    obtain ⟨m, o', c', hc, hm⟩ := hi
    obtain ⟨-, rfl, rfl⟩ := runs_unique hr hm
    exact .inr ⟨hc, rfl⟩
  | brokenPipe => exact hq.elim

private def Parent.weight : Parent β → Nat
  | .writing rest => 3 + rest.length
  | .reading _ => 2
  | .waiting _ => 1
  | _ => 0

private def restOf : Parent β → List β
  | .writing rest => rest
  | _ => []

/-- Steps the other process still has, if nothing breaks. -/
private def Left (act : σ → Act σ β) (s : State σ β) (n : Nat) : Prop :=
  match s.child with
  | .exited _ => n = 0
  | .alive x => s.parent = .brokenPipe ∨ ∃ o c, Runs act n x (s.inp ++ restOf s.parent) o c

/-- If the program comes to an end for the text, so does every execution, well or badly. -/
theorem C145_finite (text : List β) (start : σ) (n : Nat) (out : List β) (code : Nat) (hr : Runs act n start text out code) (k : Nat)
    (s : State σ β) (h : Steps act roomIn roomOut k (State.init text start) s) : k ≤ 2 * n + text.length + 3 := by
  have key : ∀ k s, Steps act roomIn roomOut k (State.init text start) s →
      ∃ m, Left act s m ∧ (s.parent = .brokenPipe → ∃ c, s.child = .exited c) ∧
        2 * m + Parent.weight s.parent + s.out.length + k ≤ 2 * n + text.length + 3 := by
    intro k s h
    generalize hs : State.init text start = s0 at h
    induction h with
    | refl =>
      subst hs
      exact ⟨n, .inr ⟨out, code, by simpa [State.init, restOf] using hr⟩, by simp [State.init],
        by simp [State.init, Parent.weight]; omega⟩
    | @tail k s0 s t h1 h2 ih =>
      subst hs
      have hi := inv h1
      obtain ⟨m, hl, hb, hw⟩ := ih rfl
      cases h2 with
      | write _ =>
        refine ⟨m, ?_, by simp, by simp only [Parent.weight, List.length_cons] at hw ⊢; omega⟩
        rcases hl with h | ⟨o, c, h⟩
        · cases h
        · exact .inr ⟨o, c, by simpa [restOf] using h⟩
      | broken => exact ⟨m, hl, fun _ => ⟨_, rfl⟩, by simp only [Parent.weight, List.length_cons] at hw ⊢; omega⟩
      | @close inp o out c =>
        refine ⟨m, ?_, by simp, by simp only [Parent.weight, List.length_nil] at hw ⊢; omega⟩
        cases c with
        | exited c => exact hl
        | alive x =>
          rcases hl with h | h
          · cases h
          · exact .inr h
      | @read got inp o b out c =>
        refine ⟨m, ?_, by simp, by simp only [Parent.weight, List.length_cons] at hw ⊢; omega⟩
        cases c with
        | exited c => exact hl
        | alive x =>
          rcases hl with h | h
          · cases h
          · exact .inr h
      | readEnd => exact ⟨m, hl, by simp, by simp only [Parent.weight, List.length_nil] at hw ⊢; omega⟩
      | accept => exact ⟨m, hl, by simp, by simp only [Parent.weight] at hw ⊢; omega⟩
      | reject _ => exact ⟨m, hl, by simp, by simp only [Parent.weight] at hw ⊢; omega⟩
      | @childRead p b inp o out s next ha =>
        rcases hl with h | ⟨o', c, h⟩
        · obtain ⟨c, hc⟩ := hb h; cases hc
        · cases h with
          | exit e => rw [ha] at e; cases e
          | write e _ => rw [ha] at e; cases e
          | read e h =>
            rw [ha] at e; cases e
            exact ⟨_, .inr ⟨o', c, h⟩, fun h => (by obtain ⟨c, hc⟩ := hb h; cases hc), by dsimp only at hw ⊢; omega⟩
      | @childEnd p out s next ha =>
        rcases hl with h | ⟨o', c, h⟩
        · obtain ⟨c, hc⟩ := hb h; cases hc
        · have hrest : restOf p = [] := by
            cases p with
            | writing rest => exact absurd hi.1 (by simp)
            | _ => rfl
          simp only [hrest, List.append_nil] at h
          cases h with
          | exit e => rw [ha] at e; cases e
          | write e _ => rw [ha] at e; cases e
          | eof e h =>
            rw [ha] at e; cases e
            exact ⟨_, .inr ⟨o', c, by simpa [hrest] using h⟩, fun h => (by obtain ⟨c, hc⟩ := hb h; cases hc),
              by dsimp only at hw ⊢; omega⟩
      | @childWrite p inp o out s b next ha _ =>
        rcases hl with h | ⟨o', c, h⟩
        · obtain ⟨c, hc⟩ := hb h; cases hc
        · dsimp only at h
          generalize hg : inp ++ restOf p = g at h
          cases h with
          | exit e => rw [ha] at e; cases e
          | write e h =>
            rw [ha] at e; cases e
            exact ⟨_, .inr ⟨_, c, by simpa [hg] using h⟩, fun h => (by obtain ⟨c, hc⟩ := hb h; cases hc),
              by simp only [List.length_append, List.length_cons, List.length_nil] at hw ⊢; omega⟩
          | read e _ => rw [ha] at e; cases e
          | eof e _ => rw [ha] at e; cases e
      | @childExit p inp o out s code ha =>
        rcases hl with h | ⟨o', c, h⟩
        · obtain ⟨c, hc⟩ := hb h; cases hc
        · have hm : 1 ≤ m := by
            dsimp only at h
            generalize inp ++ restOf p = g at h
            cases h <;> omega
          exact ⟨0, rfl, fun h => ⟨_, rfl⟩, by dsimp only at hw ⊢; omega⟩
  obtain ⟨m, -, -, hw⟩ := key k s h
  omega

/-- A program that writes every byte as soon as it has read it. -/
inductive Cat (β : Type) where
  | reading
  | writing (b : β)
  | ending

def catAct : Cat β → Act (Cat β) β
  | .reading => .read fun | some b => .writing b | none => .ending
  | .writing b => .write b .reading
  | .ending => .exit 0

theorem cat_runs (text : List β) : ∃ n, Runs catAct n .reading text text 0 := by
  induction text with
  | nil => exact ⟨2, .eof rfl (.exit rfl)⟩
  | cons b text ih =>
    obtain ⟨n, ih⟩ := ih
    exact ⟨n + 2, .read rfl (.write rfl ih)⟩

theorem pandoc_trans {m n : Nat} {s t u : State σ β} (h1 : Steps act roomIn roomOut m s t) (h2 : Steps act roomIn roomOut n t u) :
    Steps act roomIn roomOut (m + n) s u := by
  induction h2 with
  | refl => exact h1
  | tail _ h ih => exact .tail (ih h1) h

/-- **C145 is false**: if the program writes while it reads, and the text is longer than both pipes have room for and one byte, the
filter and the program may wait for each other for ever. -/
theorem C145_false (hin : 0 < roomIn) (text : List β) (hl : roomIn + roomOut + 1 < text.length) :
    ∃ s, Reachable catAct roomIn roomOut text .reading s ∧ Stuck catAct roomIn roomOut s ∧ ¬ Ended s := by
  -- the second pipe is filled
  have copy : ∀ (a rest out : List β), out.length + a.length ≤ roomOut →
      ∃ n, Steps catAct roomIn roomOut n ⟨.writing (a ++ rest), [], true, out, .alive .reading⟩
        ⟨.writing rest, [], true, out ++ a, .alive .reading⟩ := by
    intro a
    induction a with
    | nil => intro rest out _; exact ⟨0, by simpa using Steps.refl _⟩
    | cons b a ih =>
      intro rest out ho
      simp only [List.length_cons] at ho
      obtain ⟨n, hn⟩ := ih rest (out ++ [b]) (by simp only [List.length_append, List.length_cons, List.length_nil]; omega)
      have s0 := Steps.refl (act := catAct) (roomIn := roomIn) (roomOut := roomOut)
        ⟨.writing (b :: (a ++ rest)), [], true, out, .alive Cat.reading⟩
      have s1 := s0.tail (.write (by simpa using hin))
      have s2 := s1.tail (.childRead rfl)
      have s3 := s2.tail (.childWrite rfl (by omega))
      exact ⟨_, by simpa using pandoc_trans s3 hn⟩
  -- the first one as well
  have fill : ∀ (a rest inp out : List β) (c : Cat β), inp.length + a.length ≤ roomIn →
      ∃ n, Steps catAct roomIn roomOut n ⟨.writing (a ++ rest), inp, true, out, .alive c⟩
        ⟨.writing rest, inp ++ a, true, out, .alive c⟩ := by
    intro a
    induction a with
    | nil => intro rest inp out c _; exact ⟨0, by simpa using Steps.refl _⟩
    | cons b a ih =>
      intro rest inp out c ho
      simp only [List.length_cons] at ho
      obtain ⟨n, hn⟩ := ih rest (inp ++ [b]) out c (by simp only [List.length_append, List.length_cons, List.length_nil]; omega)
      have s0 := Steps.refl (act := catAct) (roomIn := roomIn) (roomOut := roomOut)
        ⟨.writing (b :: (a ++ rest)), inp, true, out, .alive c⟩
      have s1 := s0.tail (.write (by omega))
      exact ⟨_, by simpa using pandoc_trans s1 hn⟩
  obtain ⟨a, t1, rfl, ha⟩ : ∃ a t1, text = a ++ t1 ∧ a.length = roomOut :=
    ⟨_, _, (List.take_append_drop roomOut text).symm, by rw [List.length_take]; omega⟩
  simp only [List.length_append] at hl
  obtain ⟨y, t2, rfl⟩ : ∃ y t2, t1 = y :: t2 := by
    cases t1 with
    | nil => simp at hl; omega
    | cons y t2 => exact ⟨y, t2, rfl⟩
  simp only [List.length_cons] at hl
  obtain ⟨b, t3, rfl, hb⟩ : ∃ b t3, t2 = b ++ t3 ∧ b.length = roomIn :=
    ⟨_, _, (List.take_append_drop roomIn t2).symm, by rw [List.length_take]; omega⟩
  simp only [List.length_append] at hl
  obtain ⟨z, t4, rfl⟩ : ∃ z t4, t3 = z :: t4 := by
    cases t3 with
    | nil => simp at hl; omega
    | cons y t2 => exact ⟨y, t2, rfl⟩
  obtain ⟨n1, h1⟩ := copy a (y :: (b ++ z :: t4)) [] (by simp [ha])
  have h2 := (h1.tail (.write (by simpa using hin))).tail (.childRead rfl)
  obtain ⟨n3, h3⟩ := fill b (z :: t4) [] a (.writing y) (by simp [hb])
  refine ⟨⟨.writing (z :: t4), b, true, a, .alive (.writing y)⟩, ⟨_, by simpa [State.init] using pandoc_trans h2 (by simpa using h3)⟩, ?_, ?_⟩
  · intro t ht
    generalize hs : (⟨.writing (z :: t4), b, true, a, .alive (.writing y)⟩ : State (Cat β) β) = s at ht
    cases ht <;> simp only [State.mk.injEq, Parent.writing.injEq, Child.alive.injEq, reduceCtorEq, false_and, and_false] at hs
    case write h => obtain ⟨-, rfl, -⟩ := hs; omega
    case childRead h => obtain ⟨-, -, -, -, rfl⟩ := hs; simp [catAct] at h
    case childWrite h h' => obtain ⟨-, -, -, rfl, -⟩ := hs; omega
    case childExit h => obtain ⟨-, -, -, -, rfl⟩ := hs; simp [catAct] at h
  · rintro (⟨t, h⟩ | h | h) <;> simp at h

/-- While the filter writes: what is in the pipe is part of the text, and the other process, if alive, can go on to its end. -/
private def Goes (act : σ → Act σ β) (text : List β) (s : State σ β) : Prop :=
  match s.parent with
  | .writing rest => s.isOpen = true ∧ s.inp.length + rest.length ≤ text.length ∧
      ∀ x, s.child = .alive x → ∃ n o c, Runs act n x (s.inp ++ rest) o c
  | _ => True

private theorem goes_step {text : List β} {s t : State σ β} (hi : Goes act text s) (h : Step act roomIn roomOut s t) :
    Goes act text t := by
  cases h with
  | write _ =>
    obtain ⟨h1, h2, h3⟩ := hi
    refine ⟨h1, ?_, fun x hx => ?_⟩
    · simp only [List.length_append, List.length_cons, List.length_nil] at h2 ⊢; omega
    · simpa using h3 x hx
  | broken => trivial
  | close => trivial
  | read => trivial
  | readEnd => trivial
  | accept => trivial
  | reject _ => trivial
  | @childRead p b inp o out s next ha =>
    cases p with
    | writing rest =>
      obtain ⟨h1, h2, h3⟩ := hi
      refine ⟨h1, ?_, fun x hx => ?_⟩
      · simp only [List.length_cons] at h2 ⊢; omega
      · cases hx
        obtain ⟨n, o, c, hr⟩ := h3 s rfl
        rw [List.cons_append] at hr
        cases hr with
        | exit e => rw [ha] at e; cases e
        | write e _ => rw [ha] at e; cases e
        | read e h => rw [ha] at e; cases e; exact ⟨_, _, _, h⟩
    | _ => trivial
  | @childEnd p out s next ha =>
    cases p with
    | writing rest => exact absurd hi.1 (by simp)
    | _ => trivial
  | @childWrite p inp o out s b next ha _ =>
    cases p with
    | writing rest =>
      obtain ⟨h1, h2, h3⟩ := hi
      refine ⟨h1, h2, fun x hx => ?_⟩
      cases hx
      obtain ⟨n, o, c, hr⟩ := h3 s rfl
      dsimp only at hr ⊢
      generalize inp ++ rest = g at hr ⊢
      cases hr with
      | exit e => rw [ha] at e; cases e
      | write e h => rw [ha] at e; cases e; exact ⟨_, _, _, h⟩
      | read e _ => rw [ha] at e; cases e
      | eof e _ => rw [ha] at e; cases e
    | _ => trivial
  | @childExit p inp o out s code ha =>
    cases p with
    | writing rest => exact ⟨hi.1, hi.2.1, fun x hx => by cases hx⟩
    | _ => trivial

/-- **C145** (partial: for texts that fit into the first pipe, or results that fit into the second): whatever the order in which the
program reads and writes, the filter ends: with what the program writes, without a text if it exits with something but zero, or by an
exception if it exits before it was given the whole text. -/
theorem C145_fits_partial (hin : 0 < roomIn) (hout : 0 < roomOut) (text : List β) (start : σ) (n : Nat) (out : List β) (code : Nat)
    (hr : Runs act n start text out code) (hf : text.length ≤ roomIn ∨ out.length ≤ roomOut) (s : State σ β)
    (h : Reachable act roomIn roomOut text start s) (hs : Stuck act roomIn roomOut s) :
    (code = 0 ∧ s.parent = .yielded out) ∨ (code ≠ 0 ∧ s.parent = .rejected) ∨ s.parent = .brokenPipe := by
  obtain ⟨k, h⟩ := h
  have hi := inv h
  have hg : Goes act text s := by
    generalize hs0 : State.init text start = s0 at h
    clear hi hs
    induction h with
    | refl =>
      subst hs0
      exact ⟨rfl, by simp [State.init], fun x hx => by cases hx; exact ⟨n, out, code, by simpa [State.init] using hr⟩⟩
    | tail _ h2 ih => exact goes_step (ih hs0) h2
  obtain ⟨p, inp, o, pipe, c⟩ := s
  cases p with
  | writing rest =>
    exfalso
    obtain ⟨_, hl, hx⟩ := hg
    dsimp only at hl
    cases rest with
    | nil => exact hs _ .close
    | cons b rest =>
      cases c with
      | exited code => exact hs _ .broken
      | alive x =>
        by_cases hfull : inp.length < roomIn
        · exact hs _ (.write hfull)
        · have hlen : out.length ≤ roomOut := by
            simp only [List.length_cons] at hl
            omega
          cases ha : act x with
          | read next =>
            cases inp with
            | nil => simp at hfull; omega
            | cons y inp => exact hs _ (.childRead ha)
          | exit code => exact hs _ (.childExit ha)
          | write d next =>
            obtain ⟨m, o', c', hm⟩ := hx x rfl
            obtain ⟨m', hm'⟩ := hi.2 m o' c' hm
            obtain ⟨-, rfl, rfl⟩ := runs_unique hr hm'
            refine hs _ (.childWrite ha ?_)
            dsimp only at hm hlen
            generalize inp ++ b :: rest = g at hm
            cases hm with
            | exit e => rw [ha] at e; cases e
            | write e h => simp only [List.nil_append, List.length_append, List.length_cons] at hlen; omega
            | read e _ => rw [ha] at e; cases e
            | eof e _ => rw [ha] at e; cases e
  | reading got =>
    exfalso
    cases pipe with
    | cons b pipe => exact hs _ .read
    | nil =>
      cases c with
      | exited code => exact hs _ .readEnd
      | alive x =>
        obtain ⟨ho, -⟩ := hi
        dsimp only at ho
        subst ho
        cases ha : act x with
        | read next =>
          cases inp with
          | nil => exact hs _ (.childEnd ha)
          | cons y inp => exact hs _ (.childRead ha)
        | write b next => exact hs _ (.childWrite ha (by simpa using hout))
        | exit code => exact hs _ (.childExit ha)
  | waiting got =>
    exfalso
    obtain ⟨_, code, hc, _⟩ := hi
    dsimp only at hc
    subst hc
    by_cases h0 : code = 0
    · subst h0; exact hs _ .accept
    · exact hs _ (.reject h0)
  | yielded t =>
    obtain ⟨m, hm⟩ := hi
    obtain ⟨-, rfl, rfl⟩ := runs_unique hr hm
    exact .inl ⟨rfl, rfl⟩
  | rejected =>
    obtain ⟨m, o', c', hc, hm⟩ := hi
    obtain ⟨-, rfl, rfl⟩ := runs_unique hr hm
    exact .inr (.inl ⟨hc, rfl⟩)
  | brokenPipe => exact .inr (.inr rfl)

/-- For instance, a text of two bytes through pipes of two, by a program that writes while it reads. -/
example : (∃ n, Runs catAct n .reading [1, 2] [1, 2] 0) ∧ ([1, 2] : List Nat).length ≤ 2 := ⟨cat_runs _, by simp⟩

/-- A filter that waits for ever does so while it writes. -/
theorem stuck_writing (hout : 0 < roomOut) (text : List β) (start : σ) (s : State σ β)
    (h : Reachable act roomIn roomOut text start s) (hs : Stuck act roomIn roomOut s) (he : ¬ Ended s) :
    ∃ b rest x, s.parent = .writing (b :: rest) ∧ s.child = .alive x := by
  obtain ⟨k, h⟩ := h
  have hi := inv h
  obtain ⟨p, inp, o, pipe, c⟩ := s
  cases p with
  | writing rest =>
    cases rest with
    | nil => exact absurd .close (hs _)
    | cons b rest =>
      cases c with
      | exited code => exact absurd .broken (hs _)
      | alive x => exact ⟨b, rest, x, rfl, rfl⟩
  | reading got =>
    exfalso
    cases pipe with
    | cons b pipe => exact hs _ .read
    | nil =>
      cases c with
      | exited code => exact hs _ .readEnd
      | alive x =>
        obtain ⟨ho, -⟩ := hi
        dsimp only at ho
        subst ho
        cases ha : act x with
        | read next =>
          cases inp with
          | nil => exact hs _ (.childEnd ha)
          | cons y inp => exact hs _ (.childRead ha)
        | write b next => exact hs _ (.childWrite ha (by simpa using hout))
        | exit code => exact hs _ (.childExit ha)
  | waiting got =>
    exfalso
    obtain ⟨_, code, hc, _⟩ := hi
    dsimp only at hc
    subst hc
    by_cases h0 : code = 0
    · subst h0; exact hs _ .accept
    · exact hs _ (.reject h0)
  | yielded t => exact absurd (.inl ⟨t, rfl⟩) he
  | rejected => exact absurd (.inr (.inl rfl)) he
  | brokenPipe => exact absurd (.inr (.inr rfl)) he

/-- Bytes the program holds. -/
private def held : Cat β → Nat
  | .writing _ => 1
  | _ => 0

/-- While the filter writes, no byte is lost. -/
private def Kept (text : List β) (s : State (Cat β) β) : Prop :=
  match s.parent with
  | .writing rest => s.isOpen = true ∧
      ∃ x, s.child = .alive x ∧ x ≠ .ending ∧ rest.length + s.inp.length + held x + s.out.length = text.length
  | _ => True

private theorem kept_step {text : List β} {s t : State (Cat β) β} (hi : Kept text s) (h : Step catAct roomIn roomOut s t) :
    Kept text t := by
  cases h with
  | write _ =>
    obtain ⟨h1, x, h2, h3, h4⟩ := hi
    refine ⟨h1, x, h2, h3, ?_⟩
    simp only [List.length_append, List.length_cons, List.length_nil] at h4 ⊢; omega
  | broken => trivial
  | close => trivial
  | read => trivial
  | readEnd => trivial
  | accept => trivial
  | reject _ => trivial
  | @childRead p b inp o out s next ha =>
    cases p with
    | writing rest =>
      obtain ⟨h1, x, h2, h3, h4⟩ := hi
      cases h2
      cases s <;> simp [catAct] at ha
      subst ha
      refine ⟨h1, _, rfl, by simp, ?_⟩
      simp only [List.length_cons, held] at h4 ⊢; omega
    | _ => trivial
  | @childEnd p out s next ha =>
    cases p with
    | writing rest => exact absurd hi.1 (by simp)
    | _ => trivial
  | @childWrite p inp o out s b next ha _ =>
    cases p with
    | writing rest =>
      obtain ⟨h1, x, h2, h3, h4⟩ := hi
      cases h2
      cases s <;> simp [catAct] at ha
      obtain ⟨-, rfl⟩ := ha
      refine ⟨h1, _, rfl, by simp, ?_⟩
      simp only [List.length_append, List.length_cons, List.length_nil, held] at h4 ⊢; omega
    | _ => trivial
  | @childExit p inp o out s code ha =>
    cases p with
    | writing rest =>
      obtain ⟨h1, x, h2, h3, h4⟩ := hi
      cases h2
      cases s <;> simp [catAct] at ha
      exact absurd rfl h3
    | _ => trivial

/-- For a program that writes every byte as soon as it has read it, the filter can wait for ever exactly for texts that fill both pipes,
with one byte in the hands of the program and another yet to be written. -/
theorem C145_exactly (hin : 0 < roomIn) (hout : 0 < roomOut) (text : List β) :
    (∃ s, Reachable catAct roomIn roomOut text .reading s ∧ Stuck catAct roomIn roomOut s ∧ ¬ Ended s) ↔
      roomIn + roomOut + 1 < text.length := by
  constructor
  · rintro ⟨s, h, hs, he⟩
    obtain ⟨b, rest, x, hp, hc⟩ := stuck_writing hout text .reading s h hs he
    have hk : Kept text s := by
      obtain ⟨k, h⟩ := h
      generalize hs0 : State.init text Cat.reading = s0 at h
      clear hs he hp hc
      induction h with
      | refl => subst hs0; exact ⟨rfl, .reading, rfl, by simp, by simp [State.init, held]⟩
      | tail _ h2 ih => exact kept_step (ih hs0) h2
    obtain ⟨p, inp, o, pipe, c⟩ := s
    dsimp only at hp hc
    subst hp hc
    obtain ⟨_, y, hy, hne, hl⟩ := hk
    dsimp only at hy hl
    cases hy
    have hfull : ¬ inp.length < roomIn := fun h => hs _ (.write h)
    cases x with
    | reading =>
      cases inp with
      | nil => simp at hfull; omega
      | cons z inp => exact absurd (.childRead rfl) (hs _)
    | writing z =>
      have hfull' : ¬ pipe.length < roomOut := fun h => hs _ (.childWrite rfl h)
      simp only [List.length_cons, held] at hl
      omega
    | ending => exact absurd rfl hne
  · intro hl
    exact C145_false hin text hl

/-- A program that exits without reading: writing raises an exception. -/
theorem C145_exits (code : Nat) (b : β) (text : List β) :
    ∃ s, Reachable (fun _ : Unit => .exit code) roomIn roomOut (b :: text) () s ∧ s.parent = .brokenPipe := by
  have s0 := Steps.refl (act := fun _ : Unit => .exit code) (roomIn := roomIn) (roomOut := roomOut) (State.init (b :: text) ())
  exact ⟨_, ⟨_, (s0.tail (.childExit (code := code) rfl)).tail .broken⟩, rfl⟩

/-- Counts bytes, all of them before it writes. -/
def countAct : Nat × Bool → Act (Nat × Bool) Nat
  | (n, false) => .read fun | some _ => (n + 1, false) | none => (n, true)
  | (n, true) => if n = 0 then .exit 0 else .write n (0, true)

example : ReadsFirst countAct (0, false) :=
  ⟨fun x => x.2 = false, rfl, by rintro ⟨n, b⟩ rfl; exact ⟨_, rfl, fun b => rfl⟩⟩

example : ∃ n, Runs countAct n (0, false) [8, 8, 8] [3] 0 :=
  ⟨6, .read rfl (.read rfl (.read rfl (.eof rfl (.write rfl (.exit rfl)))))⟩

end Lulua.Props
