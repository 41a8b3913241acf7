import Verif.Model.Formats

/-!
# Specification vocabulary for documents and archives
-/

namespace Lulua.Spec
open Lulua

/-! ### HTML -/

/-- Script and style elements. -/
def IsScript (name : Text) : Prop := name = "script".toList ∨ name = "style".toList

instance (name : Text) : Decidable (IsScript name) := by unfold IsScript; infer_instance

mutual
/-- The tokens of a node without its script and style elements. -/
def cleanTokens : HNode → List Token
  | .text d => [.characters d]
  | .space d => [.spaceCharacters d]
  | .comment d => [.comment d]
  | .void n a => [.emptyTag n a]
  | .element n a cs => if IsScript n then [] else [.startTag n a] ++ cleanTokensAll cs ++ [.endTag n]
def cleanTokensAll : List HNode → List Token
  | [] => []
  | n :: ns => cleanTokens n ++ cleanTokensAll ns
end

mutual
/-- The (outermost) selected elements, in document order. -/
def selectedElements (f : Text → Attrs → Bool) : HNode → List HNode
  | .text _ => []
  | .space _ => []
  | .comment _ => []
  | .void _ _ => []
  | .element n a cs => if f n a then [.element n a cs] else selectedElementsAll f cs
def selectedElementsAll (f : Text → Attrs → Bool) : List HNode → List HNode
  | [] => []
  | n :: ns => selectedElements f n ++ selectedElementsAll f ns
end

mutual
/-- No element for which `p` holds occurs. -/
def NoElement (p : Text → Attrs → Prop) : HNode → Prop
  | .text _ => True
  | .space _ => True
  | .comment _ => True
  | .void _ _ => True
  | .element n a cs => ¬ p n a ∧ NoElementAll p cs
def NoElementAll (p : Text → Attrs → Prop) : List HNode → Prop
  | [] => True
  | n :: ns => NoElement p n ∧ NoElementAll p ns
end

mutual
/-- What a HTML parser guarantees of scripts and styles, and what the selection functions in use
guarantee: scripts contain no elements and are not selected. -/
def ScriptsOk (f : Text → Attrs → Bool) : HNode → Prop
  | .text _ => True
  | .space _ => True
  | .comment _ => True
  | .void _ _ => True
  | .element n a cs => (IsScript n → f n a = false ∧ NoElementAll (fun _ _ => True) cs) ∧ ScriptsOkAll f cs
def ScriptsOkAll (f : Text → Attrs → Bool) : List HNode → Prop
  | [] => True
  | n :: ns => ScriptsOk f n ∧ ScriptsOkAll f ns
end

mutual
/-- No selected element inside a selected element. -/
def NotNested (f : Text → Attrs → Bool) : HNode → Prop
  | .text _ => True
  | .space _ => True
  | .comment _ => True
  | .void _ _ => True
  | .element n a cs => (f n a = true → NoElementAll (fun n a => f n a = true) cs) ∧ NotNestedAll f cs
def NotNestedAll (f : Text → Attrs → Bool) : List HNode → Prop
  | [] => True
  | n :: ns => NotNested f n ∧ NotNestedAll f ns
end

mutual
/-- The text of a node: character data in order, one space per white space node, a blank line after
each p and div. With `skip`, scripts and styles are left out. -/
def nodeText (skip : Bool) : HNode → Text
  | .text d => d
  | .space _ => [' ']
  | .comment _ => []
  | .void _ _ => []
  | .element n _ cs =>
    if skip = true ∧ IsScript n then []
    else nodesText skip cs ++ if n = "p".toList ∨ n = "div".toList then "\n\n".toList else []
def nodesText (skip : Bool) : List HNode → Text
  | [] => []
  | n :: ns => nodeText skip n ++ nodesText skip ns
end

/-! ### XML -/

/-- The node reached from a list of nodes by child positions. -/
def nodeAt : List XNode → List Nat → Option XNode
  | _, [] => none
  | ns, [i] => ns[i]?
  | ns, i :: p =>
    match ns[i]? with
    | some (.element _ cs) => nodeAt cs p
    | _ => none

/-- Document order of positions: a node comes before what it contains and before everything that
follows it. -/
def DocBefore : List Nat → List Nat → Prop
  | [], [] => False
  | [], _ :: _ => True
  | _ :: _, [] => False
  | i :: p, j :: q => i < j ∨ (i = j ∧ DocBefore p q)

/-- The text nodes directly in a list of nodes. -/
def directTexts (ns : List XNode) : List Text :=
  ns.filterMap fun n => match n with
    | .text d => some d
    | _ => none

mutual
/-- No element of this name inside an element of this name. -/
def XNotNested (tag : Text) : XNode → Prop
  | .text _ => True
  | .other => True
  | .element n cs => (n = tag → XNone tag cs) ∧ XNotNestedAll tag cs
def XNotNestedAll (tag : Text) : List XNode → Prop
  | [] => True
  | n :: ns => XNotNested tag n ∧ XNotNestedAll tag ns
/-- No element of this name. -/
def XNone (tag : Text) : List XNode → Prop
  | [] => True
  | n :: ns => XNone1 tag n ∧ XNone tag ns
def XNone1 (tag : Text) : XNode → Prop
  | .text _ => True
  | .other => True
  | .element n cs => n ≠ tag ∧ XNone tag cs
end

/-- Where a reader of the document is: outside, in a text, in its body, in a paragraph. -/
inductive Level where
  | outside | text | body | par
  deriving DecidableEq, Repr

mutual
/-- One pass over a document: the text of each sentence, and an empty line at the end of each
paragraph. -/
def readThrough : Level → XNode → List Text
  | _, .text _ => []
  | _, .other => []
  | .outside, .element n cs => if n = "text".toList then readAll .text cs else readAll .outside cs
  | .text, .element n cs => if n = "body".toList then readAll .body cs else readAll .text cs
  | .body, .element n cs => if n = "p".toList then readAll .par cs ++ [[]] else readAll .body cs
  | .par, .element n cs => if n = "s".toList then [(directTexts cs).flatten] else readAll .par cs
def readAll : Level → List XNode → List Text
  | _, [] => []
  | l, n :: ns => readThrough l n ++ readAll l ns
end

/-! ### tar -/

/-- The `n` octal digits of a number as ASCII, most significant first. -/
def octalText : Nat → Nat → Bytes
  | 0, _ => []
  | n + 1, k => octalText n (k / 8) ++ [UInt8.ofNat (48 + k % 8)]

/-- A GNU tar header of a file of this size; everything else in it is arbitrary. -/
structure IsHeader (h : Bytes) (size : Nat) : Prop where
  length : h.length = 512
  magic : (h.drop 256).take 8 = [0, 117, 115, 116, 97, 114, 32, 32]
  size : (h.drop 124).take 12 = octalText 11 size ++ [0]

/-- A file in an archive. -/
structure TarEntry where
  header : Bytes
  content : Bytes
  padding : Bytes

/-- The entry has the right header, and its padding fills the last block. -/
structure TarEntry.Ok (e : TarEntry) : Prop where
  header : IsHeader e.header e.content.length
  small : e.content.length < 8 ^ 11
  padding : e.padding.length < 512 ∧ 512 ∣ e.content.length + e.padding.length

/-- The archive of some entries. -/
def archive (es : List TarEntry) : Bytes := (es.map fun e => e.header ++ e.content ++ e.padding).flatten

/-! ### brotli -/

/-- What we rely on for an intact stream: `Good s inp out` says that the decompressor in state `s` with
`inp` still to come will output `out`. It is finished only when all is output, and as long as it is
not finished there is input. -/
structure Intact {σ : Type} (D : Decompressor σ) (Good : σ → Bytes → Bytes → Prop) : Prop where
  finished : ∀ s inp out, Good s inp out → D.isFinished s = true → out = []
  input : ∀ s inp out, Good s inp out → D.isFinished s = false → inp ≠ []
  step : ∀ s n inp out, Good s inp out → D.isFinished s = false → 0 < n →
    ∃ out', out = (D.process s (inp.take n)).2 ++ out' ∧ Good (D.process s (inp.take n)).1 (inp.drop n) out'

/-- What we rely on for a truncated stream: it is never finished, and without input nothing happens. -/
structure Truncated {σ : Type} (D : Decompressor σ) (Good : σ → Bytes → Bytes → Prop) : Prop where
  unfinished : ∀ s inp out, Good s inp out → D.isFinished s = false
  idle : ∀ s out, Good s [] out → out = []
  step : ∀ s n inp out, Good s inp out → 0 < n →
    ∃ out', out = (D.process s (inp.take n)).2 ++ out' ∧ Good (D.process s (inp.take n)).1 (inp.drop n) out'

/-- Reading from a file with this content. -/
def plainReads : Bytes → List (Option Nat) → List Bytes
  | _, [] => []
  | c, some n :: ns => c.take n :: plainReads (c.drop n) ns
  | c, none :: ns => c :: plainReads [] ns

end Lulua.Spec
