import Verif.Model.Formats
import Verif.Model.Mediawiki

/-!
# Model of the filters of `lulua-write` and their composition

`filterAvail` (`text.py:276-290`) names functions for very different things: lines of standard input, open files, parsed
documents. Which of them can follow another one is not checked anywhere; here every filter is defined for everything a
filter can yield. Parsers, the decompressor, pandoc and the file system are parameters (`FilterWorld`).
-/

namespace Lulua

/-- What can be read from a file object: the bytes, and the exception raised by reading beyond them, if it is not just
the end of the file. `iterable` is `False` for `BrotliFile`, which has no `__iter__`. -/
structure FileObj where
  data : Bytes
  fail : Option PyErr
  iterable : Bool
  deriving DecidableEq, Repr

/-- What filters take and yield: `str`, file objects and minidom documents. -/
inductive FilterItem where
  | str (t : Text)
  | file (f : FileObj)
  | doc (nodes : List XNode)
  deriving Repr

/-- How a decompressor got on with its input: it is finished, it raised an exception, or it waits for more. -/
inductive BrotliEnd where
  | finished
  | corrupt (e : PyErr)
  | starved
  deriving DecidableEq, Repr

/-- The libraries and programs used by the filters. `jsonOther` is for JSON values that are not strings: what typing them
gives. `unbrotli` is what comes out of the decompressor until it stops. -/
structure FilterWorld where
  isSpace : Char → Bool
  entities : Dict Text Text
  openFile : Text → Py Bytes
  unbrotli : Bytes → Bytes × BrotliEnd
  unbrotli_nil : unbrotli [] = ([], .starved)
  parseHtmlBytes : Bytes → Py (List HNode)
  parseHtmlText : Text → Py (List HNode)
  parseXml : Bytes → Py (List XNode)
  decode : Bytes → Py Text
  readEpub : Text → Py (List Bytes)
  jsonOther : Text → Py Text
  pandoc : Text → Py (Option Text)

/-- `filterAvail` (`text.py:276-290`): the names of the filters. -/
inductive FilterName where
  | aljazeera | bbcarabic | text | json | epub | tei2 | opensubtitles | lines | xml | file | tar | mediawikimarkdown
  | brotli
  deriving DecidableEq, Repr

/-- `filterAvail` (`text.py:276-290`). -/
def filterAvail : Dict String FilterName :=
  [ ("aljazeera", .aljazeera), ("bbcarabic", .bbcarabic), ("text", .text), ("json", .json), ("epub", .epub),
    ("tei2", .tei2), ("opensubtitles", .opensubtitles), ("lines", .lines), ("xml", .xml), ("file", .file), ("tar", .tar),
    ("mediawikimarkdown", .mediawikimarkdown), ("brotli", .brotli) ]

/-- `choices=filterAvail.keys ()` and `filterSel` (`text.py:401,412`); `none` if argparse complains. -/
def filterSel (names : List String) : Option (List FilterName) :=
  if names = [] then none else names.mapM fun n => filterAvail.get? n

/-- The exception of `fd.read (n)`, if any. -/
def shortRead (fail : Option PyErr) (n : Nat) (fd : Bytes) : Option PyErr := if fd.length < n then fail else none

/-- One round of the loop of `filterTar` (`text.py:153-171`) for a file object that may fail: the member, if one is
yielded, and either what is left and the position in it, or the end. -/
def tarStep (fail : Option PyErr) (fd : Bytes) (pos : Nat) : Option Bytes × (Bytes × Nat ⊕ Option PyErr) :=
  if (shortRead fail 512 fd).isSome then (none, .inr fail)
  else if fd.take 512 = [] ∨ fd.take 512 = emptyBlock then (none, .inr none)
  else if ((fd.take 512).drop 256).take 8 ≠ tarMagic then (none, .inr (some .assertionError))
  else match intOctal (rstripNul (((fd.take 512).drop 124).take 12)) with
    | .error e => (none, .inr (some e))
    | .ok size =>
      if size > 0 then
        if (shortRead fail size.toNat (fd.drop 512)).isSome then (none, .inr fail)
        else if (shortRead fail (tarPad (pos + 512 + size.toNat)) ((fd.drop 512).drop size.toNat)).isSome then
          (some ((fd.drop 512).take size.toNat), .inr fail)
        else (some ((fd.drop 512).take size.toNat),
          .inl (((fd.drop 512).drop size.toNat).drop (tarPad (pos + 512 + size.toNat)),
            pos + 512 + size.toNat + tarPad (pos + 512 + size.toNat)))
      else if (shortRead fail (tarPad (pos + 512)) (fd.drop 512)).isSome then (none, .inr fail)
      else (none, .inl ((fd.drop 512).drop (tarPad (pos + 512)), pos + 512 + tarPad (pos + 512)))

/-- What is left is less than before. -/
theorem tarStep_shorter {fail : Option PyErr} {fd : Bytes} {pos : Nat} {x : Option Bytes} {fd' : Bytes} {pos' : Nat}
    (h : tarStep fail fd pos = (x, .inl (fd', pos'))) : fd'.length < fd.length := by
  unfold tarStep at h
  split at h
  · simp at h
  · split at h
    · simp at h
    · rename_i hn
      rw [not_or, List.take_eq_nil_iff] at hn
      have : fd ≠ [] := fun h => hn.1 (.inr h)
      have hl := List.length_pos_iff.2 this
      split at h
      · simp at h
      · split at h
        · simp at h
        · split at h
          · split at h
            · simp at h
            · split at h
              · simp at h
              · simp only [Prod.mk.injEq, Sum.inl.injEq] at h
                rw [← h.2.1]
                simp only [List.length_drop]
                omega
          · split at h
            · simp at h
            · simp only [Prod.mk.injEq, Sum.inl.injEq] at h
              rw [← h.2.1]
              simp only [List.length_drop]
              omega

/-- `filterTar` (`text.py:146-171`) for a file object that may fail. -/
def tarFrom (fail : Option PyErr) (fd : Bytes) (pos : Nat) : Gen Bytes :=
  match _h : tarStep fail fd pos with
  | (x, .inr e) => ⟨x.toList, e⟩
  | (x, .inl (fd', pos')) => ⟨x.toList ++ (tarFrom fail fd' pos').items, (tarFrom fail fd' pos').error⟩
termination_by fd.length
decreasing_by all_goals exact tarStep_shorter _h

namespace Gen

/-- A generator with a single `yield` of something that can raise an exception. -/
def ofPy {α : Type} : Py α → Gen α
  | .ok x => .ofList [x]
  | .error e => ⟨[], some e⟩

/-- Everything a generator yields, changed by `g`. -/
def map {α β : Type} (g : α → β) (x : Gen α) : Gen β := ⟨x.items.map g, x.error⟩

end Gen

namespace FilterWorld
variable (w : FilterWorld)

/-- `fd.read ()`. -/
def readAll (f : FileObj) : Py Bytes :=
  match f.fail with
  | some e => .error e
  | none => .ok f.data

/-- `BrotliFile` (`text.py:112-144`) of a file object. If its data just ends too early, reading hangs (C50); here it is an
exception. -/
def decompress (f : FileObj) : FileObj :=
  match w.unbrotli f.data with
  | (out, .finished) => ⟨out, none, false⟩
  | (out, .corrupt e) => ⟨out, some e, false⟩
  | (out, .starved) => ⟨out, some (f.fail.getD .otherError), false⟩

/-- `html5lib.parse` (`text.py:177`): accepts `str` and file objects. -/
def parseHtml : FilterItem → Py (List HNode)
  | .str t => w.parseHtmlText t
  | .file f => do w.parseHtmlBytes (← readAll f)
  | .doc _ => .error .typeError

/-- `filterHtml` (`text.py:176-181`). -/
def html (f : Text → Attrs → Bool) (item : FilterItem) : Gen FilterItem :=
  match w.parseHtml item with
  | .ok document => (filterHtml w.entities f document).map .str
  | .error e => ⟨[], some e⟩

/-- One document of an ebook (`text.py:191-195`). -/
def epubText (content : Bytes) : Py Text := do
  let t ← w.decode content
  let document ← w.parseHtmlText t
  epubDocument w.entities document

/-- `xml.dom.minidom.parse` (`text.py:217`): a `str` is the name of a file. -/
def minidomParse : FilterItem → Py (List XNode)
  | .str t => do w.parseXml (← w.openFile t)
  | .file f => do w.parseXml (← readAll f)
  | .doc _ => .error .attributeError

/-- The filters (`text.py:146-268`), called with anything. -/
def filter : FilterName → FilterItem → Gen FilterItem
  | .aljazeera, i => w.html selAljazeera i
  | .bbcarabic, i => w.html selBbcarabic i
  | .text, .file f => .ofPy do .ok (.str (← w.decode (← readAll f)))
  | .json, .str t => (filterJson w.jsonOther t).map .str
  | .json, _ => ⟨[], some .typeError⟩
  | .epub, .str t =>
    match w.readEpub (pyRstrip w.isSpace t) with
    | .ok docs => (Gen.flatMap (fun d => .ofPy (w.epubText d)) docs none).map .str
    | .error e => ⟨[], some e⟩
  | .tei2, .doc d => (filterTEI2 d).map .str
  | .opensubtitles, .doc d => (filterOpenSubtitles w.isSpace d).map .str
  | .lines, i => .ofList [i]
  | .xml, i =>
    match w.minidomParse i with
    | .ok d => .ofList [.doc d]
    | .error _ => .ofList []
  | .file, .str t => .ofPy do .ok (.file ⟨← w.openFile (pyRstrip w.isSpace t), none, true⟩)
  | .tar, .file f => (tarFrom f.fail f.data 0).map fun b => .file ⟨b, none, true⟩
  | .mediawikimarkdown, .str t =>
    match w.pandoc t with
    | .ok (some r) => .ofList [.str r]
    | .ok none => .ofList []
    | .error e => ⟨[], some e⟩
  | .brotli, .file f => .ofList [.file (w.decompress f)]
  | .brotli, _ => .ofList [.file ⟨[], some .attributeError, false⟩]
  | .text, _ => ⟨[], some .attributeError⟩
  | .epub, _ => ⟨[], some .attributeError⟩
  | .tei2, _ => ⟨[], some .attributeError⟩
  | .opensubtitles, _ => ⟨[], some .attributeError⟩
  | .file, _ => ⟨[], some .attributeError⟩
  | .tar, _ => ⟨[], some .attributeError⟩
  | .mediawikimarkdown, _ => ⟨[], some .attributeError⟩

/-- `mapChars (text, charMap)` (`text.py:352`) of something that is not a text: nothing is iterated over in an empty file,
so that the result is empty; otherwise lines of bytes cannot be joined, or there is no iteration at all. -/
def asText : FilterItem → Py Text
  | .str t => .ok t
  | .file f => if f.iterable ∧ f.data = [] ∧ f.fail = none then .ok [] else .error .typeError
  | .doc _ => .error .typeError

/-- `for text in apply (funcs, [item])` (`text.py:345-352`): the texts typed for a line of standard input. -/
def extract (fs : List FilterName) (line : Text) : Gen Text :=
  let g := applyFilters (fs.map w.filter) (.ofList [.str line])
  Gen.flatMap (fun i => .ofPy (asText i)) g.items g.error

end FilterWorld

/-- The filters of the corpora (`gen.sh:55-85`), in the order of `all.pickle` (`gen.sh:219`). -/
def corpusFilters : List (String × List String) :=
  [ ("bbcarabic", ["file", "brotli", "tar", "bbcarabic"]), ("aljazeera", ["file", "brotli", "tar", "aljazeera"]),
    ("tanzil-quaran", ["file", "text"]), ("arwiki", ["json"]), ("osm", ["lines"]), ("hindawi", ["epub"]),
    ("un-v1.0-tei", ["file", "brotli", "tar", "xml", "tei2"]),
    ("opensubtitles-2018", ["file", "brotli", "tar", "xml", "opensubtitles"]) ]

end Lulua
