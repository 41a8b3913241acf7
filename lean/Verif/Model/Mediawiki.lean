import Verif.Model.Formats

/-!
# Model of `extractMediawiki` and of the filters that read lines (`lulua/text.py:201-213,465-477`)

XML documents are trees; names of elements are expanded names (`{namespace}name`). Comments and processing
instructions are `.other`. A document that is not well-formed is not considered (the texts before the error are
written, then an exception is raised).
-/

namespace Lulua

/-! ### `json`, as far as strings are concerned -/

/-- A digit of `'{:04x}'`. -/
def hexLow (n : Nat) : Char := "0123456789abcdef".toList.getD n '0'

/-- `ESCAPE_DCT` and `'\\u{0:04x}'` of `json.encoder` with `ensure_ascii=False`; only characters below 32 are written as
numbers. -/
def jsonEscape (c : Char) : Text :=
  if c = '"' then ['\\', '"']
  else if c = '\\' then ['\\', '\\']
  else if c = '\n' then ['\\', 'n']
  else if c = '\r' then ['\\', 'r']
  else if c = '\t' then ['\\', 't']
  else if c = '\x0c' then ['\\', 'f']
  else if c = '\x08' then ['\\', 'b']
  else if c.toNat < 32 then ['\\', 'u', '0', '0', hexLow (c.toNat / 16), hexLow (c.toNat % 16)]
  else [c]

/-- `json.dump` of a string with `ensure_ascii=False` (`text.py:476`). -/
def jsonDump (t : Text) : Text := '"' :: t.flatMap jsonEscape ++ ['"']

/-- A hexadecimal digit. -/
def hexVal (c : Char) : Option Nat :=
  if '0' ≤ c ∧ c ≤ '9' then some (c.toNat - '0'.toNat)
  else if 'a' ≤ c ∧ c ≤ 'f' then some (c.toNat - 'a'.toNat + 10)
  else if 'A' ≤ c ∧ c ≤ 'F' then some (c.toNat - 'A'.toNat + 10)
  else none

/-- Four of them. -/
def hexVal4 (a b c d : Char) : Option Nat := do
  let a ← hexVal a
  let b ← hexVal b
  let c ← hexVal c
  let d ← hexVal d
  some (((a * 16 + b) * 16 + c) * 16 + d)

/-- `BACKSLASH` of `json.decoder`. -/
def jsonUnescape (c : Char) : Option Char :=
  if c = '"' then some '"' else if c = '\\' then some '\\' else if c = '/' then some '/'
  else if c = 'b' then some '\x08' else if c = 'f' then some '\x0c' else if c = 'n' then some '\n'
  else if c = 'r' then some '\r' else if c = 't' then some '\t' else none

/-- What a string is made of: characters and numbers of UTF-16 units. -/
inductive JUnit where
  | char (c : Char)
  | code (n : Nat)
  deriving DecidableEq, Repr

/-- `scanstring` of `json.decoder`, in strict mode, without combining surrogates: the contents, and what follows the
closing quote. `JSONDecodeError` is a `ValueError`. -/
def scanUnits : Text → Py (List JUnit × Text)
  | [] => .error .valueError
  | '"' :: r => .ok ([], r)
  | '\\' :: 'u' :: a :: b :: c :: d :: r =>
    match hexVal4 a b c d with
    | none => .error .valueError
    | some n => do
      let (us, rest) ← scanUnits r
      .ok (.code n :: us, rest)
  | '\\' :: c :: r =>
    match jsonUnescape c with
    | none => .error .valueError
    | some x => do
      let (us, rest) ← scanUnits r
      .ok (.char x :: us, rest)
  | c :: r =>
    if c.toNat < 32 ∨ c = '\\' then .error .valueError else do
      let (us, rest) ← scanUnits r
      .ok (.char c :: us, rest)

/-- Surrogates of escaped pairs are combined. (A lone one is kept by python, but texts here have none.) -/
def combineUnits : List JUnit → Py Text
  | [] => .ok []
  | .char c :: us => do
    let t ← combineUnits us
    .ok (c :: t)
  | .code hi :: .code lo :: us =>
    if 0xd800 ≤ hi ∧ hi < 0xdc00 ∧ 0xdc00 ≤ lo ∧ lo < 0xe000 then do
      let t ← combineUnits us
      .ok (Char.ofNat (0x10000 + (hi - 0xd800) * 1024 + (lo - 0xdc00)) :: t)
    else if 0xd800 ≤ hi ∧ hi < 0xe000 then .error .otherError else do
      let t ← combineUnits (.code lo :: us)
      .ok (Char.ofNat hi :: t)
  | .code n :: us =>
    if 0xd800 ≤ n ∧ n < 0xe000 then .error .otherError else do
      let t ← combineUnits us
      .ok (Char.ofNat n :: t)

/-- `WHITESPACE` of `json.decoder`. -/
def jsonSpace (c : Char) : Bool := c = ' ' || c = '\t' || c = '\n' || c = '\r'

/-- `json.loads` (`text.py:209`) of a text that is expected to be a string. Everything else is left to `other`; the text
filters cannot do anything with it. -/
def jsonLoads (other : Text → Py Text) (s : Text) : Py Text :=
  match s.dropWhile jsonSpace with
  | '"' :: r => do
    let (us, rest) ← scanUnits r
    if rest.dropWhile jsonSpace ≠ [] then .error .valueError else
    combineUnits us
  | _ => other s

/-- `filterJson` (`text.py:208-209`). -/
def filterJson (other : Text → Py Text) (item : Text) : Gen Text :=
  match jsonLoads other item with
  | .ok t => .ofList [t]
  | .error e => ⟨[], some e⟩

/-! ### Standard input -/

/-- Universal newlines: how `sys.stdin` reads line ends. -/
def universalNewlines : Text → Text
  | [] => []
  | '\r' :: '\n' :: t => '\n' :: universalNewlines t
  | '\r' :: t => '\n' :: universalNewlines t
  | c :: t => c :: universalNewlines t

/-- Splitting after each line feed; `line` is what has been read of the current line, reversed. -/
def splitAfter : Text → Text → List Text
  | line, [] => if line = [] then [] else [line.reverse]
  | line, c :: t => if c = '\n' then ('\n' :: line).reverse :: splitAfter [] t else splitAfter (c :: line) t

/-- `for l in sys.stdin` (`text.py:436`). -/
def stdinLines (t : Text) : List Text := splitAfter [] (universalNewlines t)

/-- `filterLines` (`text.py:204-206`). -/
def filterLines (item : Text) : Gen Text := .ofList [item]

/-- `str.rstrip`, with python's notion of white space as a parameter. -/
def pyRstrip (isSpace : Char → Bool) (t : Text) : Text := (t.reverse.dropWhile isSpace).reverse

/-- The file opened by `filterFile` (`text.py:212`) and `filterEpub` (`text.py:185`). -/
def openedFile (isSpace : Char → Bool) (item : Text) : Text := pyRstrip isSpace item

/-! ### `extractMediawiki` -/

mutual
/-- `''.join (elem.itertext ())` (`text.py:475`): the texts inside, in document order. -/
def XNode.itertext : XNode → Text
  | .text d => d
  | .element _ cs => itertextAll cs
  | .other => []
def itertextAll : List XNode → Text
  | [] => []
  | n :: ns => n.itertext ++ itertextAll ns
end

/-- The name compared with (`text.py:474`). -/
def mwTag : Text := "{http://www.mediawiki.org/xml/export-0.10/}text".toList

mutual
/-- The texts written by the loop (`text.py:473-477`), in the order of the ends of the elements. -/
def XNode.mwTexts : XNode → List Text
  | .text _ => []
  | .element n cs => mwTextsAll cs ++ (if n = mwTag then [itertextAll cs] else [])
  | .other => []
def mwTextsAll : List XNode → List Text
  | [] => []
  | n :: ns => n.mwTexts ++ mwTextsAll ns
end

/-- What `extractMediawiki` (`text.py:467-477`) writes. -/
def extractMediawiki (doc : List XNode) : Text := (mwTextsAll doc).flatMap fun t => jsonDump t ++ ['\n']

end Lulua
