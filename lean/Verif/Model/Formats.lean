import Verif.Model.Text

/-!
# Model of the document formats in `lulua/text.py`

HTML token streams, XML documents, tar archives and brotli streams. The parsers of html5lib and
minidom and the brotli decompressor are libraries and not modelled; their results (trees) and their
interface (a decompressor) are.
-/

namespace Lulua

/-! ### HTML -/

/-- Attributes of a tag: the name with its namespace, and the value. -/
abbrev Attrs := List ((Option Text × Text) × Text)

/-- Tokens of a html5lib tree walker, distinguished by their `type` (`text.py:60-66,88-110`). -/
inductive Token where
  | doctype
  | characters (data : Text)
  | spaceCharacters (data : Text)
  | startTag (name : Text) (data : Attrs)
  | emptyTag (name : Text) (data : Attrs)
  | endTag (name : Text)
  | comment (data : Text)
  | entity (name : Text)
  | other
  deriving DecidableEq, Repr

/-- `tname in {'script', 'style'}` (`text.py:66`). -/
def isScriptName (name : Text) : Bool := name == "script".toList || name == "style".toList

/-- `self.inside` and `isScript` (`text.py:54,58`). -/
structure SelState where
  inside : Option Int
  isScript : Option Int
  deriving DecidableEq, Repr

/-- The reaction to start tags (`text.py:61-67`). -/
def selOpen (f : Text → Attrs → Bool) (s : SelState) : Token → SelState
  | .startTag name data =>
    ⟨if f name data then some 0 else s.inside, if isScriptName name then some 0 else s.isScript⟩
  | _ => s

/-- The change of `inside` for a yielded token (`text.py:75-80`). -/
def selInside (n : Int) (t : Token) : Option Int :=
  let m := match t with
    | .startTag _ _ => n + 1
    | .endTag _ => n - 1
    | _ => n
  if m ≤ 0 then none else some m

/-- The change of `isScript` (`text.py:70-73`). -/
def selScript (n : Int) : Token → Option Int
  | .endTag _ => if n - 1 ≤ 0 then none else some (n - 1)
  | _ => some n

/-- One round of the loop (`text.py:59-82`): the new state and whether the token is yielded. -/
def selStep (f : Text → Attrs → Bool) (s : SelState) (t : Token) : SelState × Bool :=
  let s := selOpen f s t
  match s.isScript, s.inside with
  | some n, _ => (⟨s.inside, selScript n t⟩, false)
  | none, some n => (⟨selInside n t, none⟩, true)
  | none, none => (s, false)

/-- `Select.__iter__` (`text.py:57-82`), from a given state. -/
def selectFrom (f : Text → Attrs → Bool) : SelState → List Token → List Token
  | _, [] => []
  | s, t :: ts =>
    if (selStep f s t).2 then t :: selectFrom f (selStep f s t).1 ts else selectFrom f (selStep f s t).1 ts

/-- `Select (source, f)` (`text.py:51-55`). -/
def select (f : Text → Attrs → Bool) (ts : List Token) : List Token := selectFrom f ⟨none, none⟩ ts

/-- One token (`text.py:86-110`); `entities` is `html5lib.constants.entities`. An unknown entity calls
a method that does not exist. -/
def serializeToken (entities : Dict Text Text) : Token → Py Text
  | .doctype => .ok []
  | .characters d => .ok d
  | .spaceCharacters _ => .ok [' ']
  | .startTag _ _ => .ok []
  | .emptyTag _ _ => .ok []
  | .endTag name => .ok (if name = "p".toList ∨ name = "div".toList then ['\n', '\n'] else [])
  | .comment _ => .ok []
  | .entity name =>
    match entities.get? (name ++ [';']) with
    | some v => .ok v
    | none => .error .attributeError
  | .other => .error .assertionError

/-- `''.join (s.serialize (…))` (`text.py:84-110,181`). -/
def serialize (entities : Dict Text Text) : List Token → Py Text
  | [] => .ok []
  | t :: ts => do
    let a ← serializeToken entities t
    let b ← serialize entities ts
    .ok (a ++ b)

/-- A parsed HTML document. -/
inductive HNode where
  | text (data : Text)
  | space (data : Text)
  | comment (data : Text)
  | void (name : Text) (attrs : Attrs)
  | element (name : Text) (attrs : Attrs) (children : List HNode)
  deriving Repr

mutual
/-- The token stream of the html5lib tree walker for a tree (library behaviour: start tag, children,
end tag; one token for void elements, text and comments). -/
def HNode.walk : HNode → List Token
  | .text d => [.characters d]
  | .space d => [.spaceCharacters d]
  | .comment d => [.comment d]
  | .void n a => [.emptyTag n a]
  | .element n a cs => .startTag n a :: (walkAll cs ++ [.endTag n])
def walkAll : List HNode → List Token
  | [] => []
  | n :: ns => n.walk ++ walkAll ns
end

/-- `filterHtml` after parsing (`text.py:176-181`). -/
def filterHtml (entities : Dict Text Text) (f : Text → Attrs → Bool) (document : List HNode) : Gen Text :=
  match serialize entities (select f (walkAll document)) with
  | .ok t => ⟨[t], none⟩
  | .error e => ⟨[], some e⟩

/-- `''.join (s.serialize (stream))` of `filterEpub` for one document (`text.py:191-195`). -/
def epubDocument (entities : Dict Text Text) (document : List HNode) : Py Text :=
  serialize entities (walkAll document)

/-- The selection functions `f['aljazeera']` and `f['bbcarabic']` (`text.py:271-274`). -/
def selAljazeera (name : Text) (data : Attrs) : Bool :=
  name == "div".toList && Dict.get? data (none, "id".toList) == some "DynamicContentContainer".toList
def selBbcarabic (name : Text) (data : Attrs) : Bool :=
  name == "div".toList && Dict.get? data (none, "property".toList) == some "articleBody".toList

/-! ### XML -/

/-- A node of a minidom document. -/
inductive XNode where
  | text (data : Text)
  | element (name : Text) (children : List XNode)
  | other
  deriving Repr

mutual
/-- `getElementsByTagName` (minidom): the matching elements below, in preorder; here their children
are returned, which is all that is used of them. -/
def XNode.byTag (tag : Text) : XNode → List (List XNode)
  | .text _ => []
  | .other => []
  | .element n cs => if n = tag then cs :: byTagAll tag cs else byTagAll tag cs
def byTagAll (tag : Text) : List XNode → List (List XNode)
  | [] => []
  | n :: ns => n.byTag tag ++ byTagAll tag ns
end

/-- `getText` (`text.py:221-227`). -/
def getTextNodes : List XNode → Text
  | [] => []
  | .text d :: ns => d ++ getTextNodes ns
  | _ :: ns => getTextNodes ns

/-- `'\n'.join (…)`. -/
def joinLines : List Text → Text
  | [] => []
  | [l] => l
  | l :: ls => l ++ '\n' :: joinLines ls

/-- The list built by `filterTEI2` (`text.py:231-237`). -/
def tei2Lines (doc : List XNode) : List Text :=
  (byTagAll "text".toList doc).flatMap fun text =>
    (byTagAll "body".toList text).flatMap fun body =>
      (byTagAll "p".toList body).flatMap fun p =>
        (byTagAll "s".toList p).map getTextNodes ++ [[]]

/-- `filterTEI2` (`text.py:229-238`). -/
def filterTEI2 (doc : List XNode) : Gen Text := .ofList [joinLines (tei2Lines doc)]

/-- `str.strip`, with python's notion of white space as a parameter. -/
def pyStrip (isSpace : Char → Bool) (t : Text) : Text :=
  ((t.dropWhile isSpace).reverse.dropWhile isSpace).reverse

/-- The list built by `filterOpenSubtitles` (`text.py:246-250`). -/
def subtitleLines (isSpace : Char → Bool) (doc : List XNode) : List Text :=
  (byTagAll "s".toList doc).map fun s => pyStrip isSpace (getTextNodes s)

/-- `filterOpenSubtitles` (`text.py:240-251`). -/
def filterOpenSubtitles (isSpace : Char → Bool) (doc : List XNode) : Gen Text :=
  .ofList [joinLines (subtitleLines isSpace doc)]

/-! ### tar -/

abbrev Bytes := List UInt8

/-- Octal digits with single underscores between them, as in `int (…, base=8)`. `us` says whether an
underscore may come next. -/
def octalDigits : Bytes → Bool → Nat → Option Nat
  | [], us, n => if us then some n else none
  | c :: cs, us, n =>
    if 48 ≤ c ∧ c < 56 then octalDigits cs true (8 * n + (c.toNat - 48))
    else if c = 95 ∧ us then octalDigits cs false n
    else none

/-- White space for `int` of bytes: tab to carriage return, and space. -/
def isByteSpace (c : UInt8) : Bool := (9 ≤ c && c ≤ 13) || c == 32

/-- Sign and prefix have been removed by `intOctal`. -/
def octalBody : Bytes → Option Nat
  | 48 :: 111 :: cs => octalDigits cs true 0
  | 48 :: 79 :: cs => octalDigits cs true 0
  | cs => octalDigits cs false 0

/-- A string of digits must not be empty, even after the `0o` prefix. -/
def octalNonEmpty : Bytes → Bool
  | [48, 111] => false
  | [48, 79] => false
  | cs => cs != []

/-- The sign, if any. -/
def octalSign : Bytes → Int × Bytes
  | 43 :: r => (1, r)
  | 45 :: r => (-1, r)
  | r => (1, r)

/-- `int (b, base=8)` of bytes: surrounding white space, a sign, an `0o` prefix and underscores between
digits are allowed; otherwise `ValueError`. -/
def intOctal (b : Bytes) : Py Int :=
  let b := ((b.dropWhile isByteSpace).reverse.dropWhile isByteSpace).reverse
  match octalNonEmpty (octalSign b).2, octalBody (octalSign b).2 with
  | true, some n => .ok ((octalSign b).1 * n)
  | _, _ => .error .valueError

/-- `b.rstrip (b'\0')`. -/
def rstripNul (b : Bytes) : Bytes := (b.reverse.dropWhile (· == 0)).reverse

/-- `b'\0ustar  '` (`text.py:158`). -/
def tarMagic : Bytes := [0, 117, 115, 116, 97, 114, 32, 32]

/-- `emptyblock` (`text.py:150`). -/
def emptyBlock : Bytes := List.replicate 512 0

/-- Skipped bytes before the next block (`text.py:167-170`). -/
def tarPad (pos : Nat) : Nat := if pos % 512 ≠ 0 then 512 - pos % 512 else 0

/-- `filterTar` (`text.py:146-171`) for a file with the remaining content `fd`, from position `pos`.
`fd.read (n)` returns the next `n` bytes, or what is left. -/
def filterTar (fd : Bytes) (pos : Nat) : Gen Bytes :=
  if _h : fd.take 512 = [] ∨ fd.take 512 = emptyBlock then ⟨[], none⟩
  else if ((fd.take 512).drop 256).take 8 ≠ tarMagic then ⟨[], some .assertionError⟩
  else match intOctal (rstripNul (((fd.take 512).drop 124).take 12)) with
    | .error e => ⟨[], some e⟩
    | .ok size =>
      if size > 0 then
        let r := filterTar (((fd.drop 512).drop size.toNat).drop (tarPad (pos + 512 + size.toNat)))
          (pos + 512 + size.toNat + tarPad (pos + 512 + size.toNat))
        ⟨(fd.drop 512).take size.toNat :: r.items, r.error⟩
      else filterTar ((fd.drop 512).drop (tarPad (pos + 512))) (pos + 512 + tarPad (pos + 512))
termination_by fd.length
decreasing_by
  all_goals
    rw [not_or, List.take_eq_nil_iff] at _h
    have : fd ≠ [] := fun h => _h.1 (.inr h)
    have := List.length_pos_iff.2 this
    simp only [List.length_drop]
    omega

/-! ### brotli -/

/-- The interface of `brotli.Decompressor`. -/
structure Decompressor (σ : Type) where
  process : σ → Bytes → σ × Bytes
  isFinished : σ → Bool

/-- `BrotliFile` (`text.py:112-119`): decompressor, what is left of `fd`, and `buf`. -/
structure BrotliFile (σ : Type) where
  decompressor : σ
  fd : Bytes
  buf : Bytes
  deriving DecidableEq, Repr

/-- `while not self.decompressor.is_finished ()` (`text.py:128-131`); `none` if it does not end within
`fuel` rounds. -/
def BrotliFile.fill {σ : Type} (D : Decompressor σ) (readchunk : Nat) (num : Option Nat) :
    Nat → BrotliFile σ → Option (BrotliFile σ)
  | 0, _ => none
  | fuel + 1, s =>
    if D.isFinished s.decompressor then some s
    else if num.any (fun n => decide (n ≤ s.buf.length)) then some s
    else
      let r := D.process s.decompressor (s.fd.take readchunk)
      fill D readchunk num fuel ⟨r.1, s.fd.drop readchunk, s.buf ++ r.2⟩

/-- `BrotliFile.read` (`text.py:127-138`). -/
def BrotliFile.read {σ : Type} (D : Decompressor σ) (readchunk : Nat) (fuel : Nat) (s : BrotliFile σ)
    (num : Option Nat) : Option (Bytes × BrotliFile σ) :=
  match fill D readchunk num fuel s with
  | none => none
  | some s =>
    match num with
    | some n => some (s.buf.take n, { s with buf := s.buf.drop n })
    | none => some (s.buf, { s with buf := [] })

/-- Several reads. -/
def BrotliFile.reads {σ : Type} (D : Decompressor σ) (readchunk : Nat) (fuel : Nat) :
    BrotliFile σ → List (Option Nat) → Option (List Bytes × BrotliFile σ)
  | s, [] => some ([], s)
  | s, n :: ns =>
    match s.read D readchunk fuel n with
    | none => none
    | some (b, s) =>
      match reads D readchunk fuel s ns with
      | none => none
      | some (bs, s) => some (b :: bs, s)

end Lulua
