import Verif.Py.Core

/-!
# Model of `filterMediawikiMarkdown` (`lulua/text.py:253-270`) with its other process

The filter writes the text into a pipe to another process (`pandoc`), closes it, and only then reads what the process writes into a
second pipe. The other program is a parameter: a state machine that reads bytes, writes bytes and exits. The pipes have room for `roomIn`
and `roomOut` bytes. Encoding and decoding are left out (the text is its bytes), as is the buffer of `p.stdin`, which only makes the
writes of several bytes one.
-/

namespace Lulua.Pandoc

variable {σ β : Type}

/-- What a program does next: read a byte (or learn that there are no more), write one, or exit. -/
inductive Act (σ β : Type) where
  | read (next : Option β → σ)
  | write (b : β) (next : σ)
  | exit (code : Nat)

/-- The other process. -/
inductive Child (σ : Type) where
  | alive (s : σ)
  | exited (code : Nat)

/-- The filter: writing (`text.py:259`), reading (`text.py:261`), waiting (`text.py:262`), and how it ends: with a text, without
(`text.py:266-269`), or by an exception while writing. -/
inductive Parent (β : Type) where
  | writing (rest : List β)
  | reading (got : List β)
  | waiting (got : List β)
  | yielded (text : List β)
  | rejected
  | brokenPipe

/-- Both processes and both pipes; `isOpen` is whether `p.stdin` has not been closed. -/
structure State (σ β : Type) where
  parent : Parent β
  inp : List β
  isOpen : Bool
  out : List β
  child : Child σ

/-- `subprocess.Popen` (`text.py:257-258`). -/
def State.init (text : List β) (s : σ) : State σ β := ⟨.writing text, [], true, [], .alive s⟩

/-- One step of one of the processes. -/
inductive Step (act : σ → Act σ β) (roomIn roomOut : Nat) : State σ β → State σ β → Prop where
  /-- `p.stdin.write (…)` (`text.py:259`), blocks while the pipe is full. -/
  | write {b rest inp o out s} : inp.length < roomIn →
      Step act roomIn roomOut ⟨.writing (b :: rest), inp, o, out, .alive s⟩ ⟨.writing rest, inp ++ [b], o, out, .alive s⟩
  /-- Writing raises `BrokenPipeError` if nobody can read it any more. -/
  | broken {b rest inp o out code} :
      Step act roomIn roomOut ⟨.writing (b :: rest), inp, o, out, .exited code⟩ ⟨.brokenPipe, inp, o, out, .exited code⟩
  /-- `p.stdin.close ()` (`text.py:260`). -/
  | close {inp o out c} :
      Step act roomIn roomOut ⟨.writing [], inp, o, out, c⟩ ⟨.reading [], inp, false, out, c⟩
  /-- `p.stdout.read ()` (`text.py:261`). -/
  | read {got inp o b out c} :
      Step act roomIn roomOut ⟨.reading got, inp, o, b :: out, c⟩ ⟨.reading (got ++ [b]), inp, o, out, c⟩
  /-- It ends when the other process has. -/
  | readEnd {got inp o code} :
      Step act roomIn roomOut ⟨.reading got, inp, o, [], .exited code⟩ ⟨.waiting got, inp, o, [], .exited code⟩
  /-- `p.wait ()` returns zero: the text is yielded (`text.py:262,268-269`). -/
  | accept {got inp o out} :
      Step act roomIn roomOut ⟨.waiting got, inp, o, out, .exited 0⟩ ⟨.yielded got, inp, o, out, .exited 0⟩
  /-- `p.wait ()` returns something else: nothing is yielded (`text.py:262,266-267`). -/
  | reject {got inp o out code} : code ≠ 0 →
      Step act roomIn roomOut ⟨.waiting got, inp, o, out, .exited code⟩ ⟨.rejected, inp, o, out, .exited code⟩
  /-- The other process reads a byte. -/
  | childRead {p b inp o out s next} : act s = .read next →
      Step act roomIn roomOut ⟨p, b :: inp, o, out, .alive s⟩ ⟨p, inp, o, out, .alive (next (some b))⟩
  /-- The other process learns that there is nothing more. -/
  | childEnd {p out s next} : act s = .read next →
      Step act roomIn roomOut ⟨p, [], false, out, .alive s⟩ ⟨p, [], false, out, .alive (next none)⟩
  /-- The other process writes a byte, blocks while the pipe is full. -/
  | childWrite {p inp o out s b next} : act s = .write b next → out.length < roomOut →
      Step act roomIn roomOut ⟨p, inp, o, out, .alive s⟩ ⟨p, inp, o, out ++ [b], .alive next⟩
  /-- The other process exits. -/
  | childExit {p inp o out s code} : act s = .exit code →
      Step act roomIn roomOut ⟨p, inp, o, out, .alive s⟩ ⟨p, inp, o, out, .exited code⟩

/-- `n` steps. -/
inductive Steps (act : σ → Act σ β) (roomIn roomOut : Nat) : Nat → State σ β → State σ β → Prop where
  | refl (s) : Steps act roomIn roomOut 0 s s
  | tail {n s t u} : Steps act roomIn roomOut n s t → Step act roomIn roomOut t u → Steps act roomIn roomOut (n + 1) s u

end Lulua.Pandoc
