import Verif.Model.Svg

/-!
# Style sheets

How a browser reads a style sheet and which value of a property it gives to an element, for what the style sheets of pictures
use: rules with descendant selectors of element names and classes, comments, quoted text, inheritance and percentages.
Escapes, `!important`, other selectors and nested rules are left out.
-/

namespace Lulua.Spec.Css
open Lulua

/-- Where in the text we are. -/
inductive Mode where
  | plain
  | quoted (q : Char)
  | comment
  deriving DecidableEq, Repr

/-- The mode after a character outside comments. -/
def Mode.next (m : Mode) (c : Char) : Mode :=
  match m with
  | .quoted q => if c = q then .plain else .quoted q
  | _ => if c = '"' ∨ c = '\'' then .quoted c else .plain

/-- The text without comments. -/
def dropComments : Mode → Text → Text
  | _, [] => []
  | .comment, [_] => []
  | .comment, a :: b :: cs => if a = '*' ∧ b = '/' then dropComments .plain cs else dropComments .comment (b :: cs)
  | .plain, [a] => [a]
  | .plain, a :: b :: cs =>
    if a = '/' ∧ b = '*' then dropComments .comment cs else a :: dropComments (Mode.plain.next a) (b :: cs)
  | .quoted q, a :: cs => a :: dropComments ((Mode.quoted q).next a) cs

/-- The blocks of a text: what is before the braces, and what is in them. `pre` and `body` are what was read of the current
block, reversed. -/
def blocks : Mode → Text → Option Text → Text → List (Text × Text)
  | _, _, _, [] => []
  | m, pre, none, c :: cs =>
    if m = .plain ∧ c = '{' then blocks .plain pre (some []) cs else blocks (m.next c) (c :: pre) none cs
  | m, pre, some body, c :: cs =>
    if m = .plain ∧ c = '}' then (pre.reverse, body.reverse) :: blocks .plain [] none cs
    else blocks (m.next c) pre (some (c :: body)) cs

/-- The parts of a text separated by a character outside of quotes. `part` is what was read of the current part, reversed. -/
def parts (sep : Char) : Mode → Text → Text → List Text
  | _, part, [] => [part.reverse]
  | m, part, c :: cs =>
    if m = .plain ∧ c = sep then part.reverse :: parts sep .plain [] cs else parts sep (m.next c) (c :: part) cs

def isBlank (c : Char) : Bool := c = ' ' || c = '\t' || c = '\n'

def words (t : Text) : List Text := (t.splitOnP isBlank).filter (· ≠ [])

/-- Without blanks on either side. -/
def trim (t : Text) : Text := ((t.dropWhile isBlank).reverse.dropWhile isBlank).reverse

/-- A name, which may be missing, and classes. -/
structure Compound where
  tag : Text
  classes : List Text
  deriving DecidableEq, Repr

def compound (t : Text) : Compound :=
  match t.splitOnP (· = '.') with
  | [] => ⟨[], []⟩
  | tag :: classes => ⟨tag, classes⟩

/-- Rules: selectors, outermost part first, and the values of properties. -/
structure Rule where
  selectors : List (List Compound)
  decls : List (Text × Text)
  deriving DecidableEq, Repr

/-- `name: value`; what has no colon is ignored. -/
def decl (t : Text) : Option (Text × Text) :=
  match t.dropWhile (· ≠ ':') with
  | [] => none
  | _ :: v => some (trim (t.takeWhile (· ≠ ':')), trim v)

def rule (b : Text × Text) : Rule :=
  ⟨(b.1.splitOnP (· = ',')).map fun s => (words s).map compound, (parts ';' .plain [] b.2).filterMap decl⟩

/-- The rules of a style sheet. `@font-face` is read as a rule for elements of that name, which do not exist. -/
def read (sheet : Text) : List Rule := (blocks .plain [] none (dropComments .plain sheet)).map rule

/-- An element has the name and all classes. -/
def Compound.hits (k : Compound) (n : SvgNode) : Bool := (k.tag = [] || k.tag = n.tag) && k.classes.all (· ∈ words n.cls)

/-- Some of the elements, in this order, are hit by the parts. -/
def around : List Compound → List SvgNode → Bool
  | [], _ => true
  | _ :: _, [] => false
  | k :: ks, n :: ns => if k.hits n then around ks ns else around (k :: ks) ns

/-- A selector hits an element, given by its path: the last part hits the element itself, the others elements around it. -/
def hits (sel : List Compound) (path : List SvgNode) : Bool :=
  match sel.getLast?, path.getLast? with
  | some k, some n => k.hits n && around sel.dropLast path.dropLast
  | _, _ => false

/-- The numbers of classes and of names. -/
def specificity (sel : List Compound) : Nat × Nat :=
  ((sel.map fun k => k.classes.length).sum, (sel.filter fun k => k.tag ≠ []).length)

def precedes (a b : Nat × Nat) : Prop := a.1 < b.1 ∨ a.1 = b.1 ∧ a.2 ≤ b.2

instance (a b : Nat × Nat) : Decidable (precedes a b) := inferInstanceAs (Decidable (_ ∨ _))

/-- All values of a property for an element, in the order of the style sheet. -/
def candidates (rules : List Rule) (path : List SvgNode) (p : Text) : List ((Nat × Nat) × Text) :=
  rules.flatMap fun r => (r.selectors.filter fun sel => hits sel path).flatMap fun sel =>
    (r.decls.filter fun d => d.1 = p).map fun d => (specificity sel, d.2)

/-- The value with the highest specificity, of these the last one. -/
def strongest : List ((Nat × Nat) × Text) → Option ((Nat × Nat) × Text)
  | [] => none
  | x :: xs => match strongest xs with
    | none => some x
    | some y => if precedes x.1 y.1 then some y else some x

/-- The value an element is given. -/
def given (rules : List Rule) (path : List SvgNode) (p : Text) : Option Text :=
  (strongest (candidates rules path p)).map (·.2)

/-- A property that is passed on to inner elements. -/
def inherited (rules : List Rule) (p initial : String) (path : List SvgNode) : Text :=
  (path.inits.filterMap fun q => given rules q p.toList).getLast?.getD initial.toList

def digits (t : Text) : Nat := t.foldl (fun n c => n * 10 + (c.toNat - '0'.toNat)) 0

/-- A decimal fraction. -/
def number (t : Text) : Rat :=
  let frac := (t.dropWhile (· ≠ '.')).tail
  digits (t.takeWhile (· ≠ '.')) + (digits frac : Rat) / 10 ^ frac.length

/-- `font-size` in pixels, for the size of the element around. -/
def fontSize (outer : Rat) (v : Text) : Rat :=
  if v.getLast? = some '%' then number v.dropLast * outer / 100 else number (v.takeWhile fun c => c.isDigit || c = '.')

/-- How an element looks. -/
structure Look where
  fill : Text
  stroke : Text
  opacity : Rat
  size : Rat
  weight : Text
  family : Text
  deriving DecidableEq, Repr

/-- How the element looks for a style sheet. Opacity is not passed on. -/
def look (rules : List Rule) (path : List SvgNode) : Look where
  fill := inherited rules "fill" "black" path
  stroke := inherited rules "stroke" "none" path
  opacity := ((given rules path "opacity".toList).map number).getD 1
  size := (path.inits.filterMap fun q => given rules q "font-size".toList).foldl fontSize 16
  weight := inherited rules "font-weight" "400" path
  family := inherited rules "font-family" "" path

/-- A shape in the picture: the circles of the heat map have their opacity in a `style` attribute, which is stronger than any
style sheet. -/
def leafLook (rules : List Rule) (x : SvgLeaf) : Look :=
  match x.shape with
  | .circle _ _ _ o => { look rules x.path with opacity := o }
  | _ => look rules x.path

end Lulua.Spec.Css

namespace Lulua.Spec.Css
open Lulua

/-- The name of a font, without quotes. -/
def unquote (t : Text) : Text := t.filter fun c => c ≠ '"' && c ≠ '\''

/-- The digits of base64, by value. -/
def b64Digits : Text := (List.range 26).map (fun i => Char.ofNat (65 + i)) ++ (List.range 26).map (fun i => Char.ofNat (97 + i)) ++
  (List.range 10).map (fun i => Char.ofNat (48 + i)) ++ ['+', '/']

def b64Value (c : Char) : Nat := b64Digits.idxOf c

/-- Base64 (RFC 4648): four digits are three bytes, fewer at the end. -/
def b64decode : Text → List Nat
  | a :: b :: c :: d :: rest =>
    let n := ((b64Value a * 64 + b64Value b) * 64 + b64Value c % 64) * 64 + b64Value d % 64
    (if c = '=' then [n / 65536] else if d = '=' then [n / 65536, n / 256 % 256] else [n / 65536, n / 256 % 256, n % 256]) ++
      b64decode rest
  | _ => []

/-- The font a rule provides: name, weight, and the bytes of the file. -/
structure Font where
  family : Text
  weight : Text
  bytes : List Nat
  deriving DecidableEq, Repr

/-- `base64,` and what follows it up to the quote. -/
def dataOf : Text → Option Text
  | [] => none
  | c :: cs => if "base64,".toList.isPrefixOf (c :: cs) then some (((c :: cs).drop 7).takeWhile (· ≠ '"')) else dataOf cs

/-- The font a rule provides. -/
def Rule.font (r : Rule) : Option Font :=
  if r.selectors = [[⟨"@font-face".toList, []⟩]] then
    match r.decls.lookup "font-family".toList, r.decls.lookup "font-weight".toList, (r.decls.lookup "src".toList).bind dataOf with
    | some f, some w, some d => some ⟨unquote f, w, b64decode d⟩
    | _, _, _ => none
  else none

/-- The colours a picture is meant to have. -/
structure Palette where
  cap : Text
  capStroke : Text
  label : Text
  labelShadow : Text
  marker : Text
  markerShadow : Text
  heat : Text
  finger : Finger → Text

/-- On screens: labels and caps in grey, fingers in different colours. -/
def screen : Palette where
  cap := "#eee8d5".toList
  capStroke := "none".toList
  label := "#657b83".toList
  labelShadow := "#fdf6e3".toList
  marker := "#fdf6e3".toList
  markerShadow := "#93a1a1".toList
  heat := "#dc322f".toList
  finger
    | .little => "#dc322f".toList
    | .ring => "#268bd2".toList
    | .middle => "#d33682".toList
    | .index => "#6c71c4".toList
    | .thumb => "#2aa198".toList

/-- On paper: black on white. There is no colour for heat; elements without a colour are black. -/
def paper : Palette where
  cap := "white".toList
  capStroke := "gray".toList
  label := "black".toList
  labelShadow := "white".toList
  marker := "gray".toList
  markerShadow := "white".toList
  heat := "black".toList
  finger _ := "white".toList

/-- The text of a file. -/
def fileText (lines : List Text) : Text := lines.flatMap fun l => l ++ ['\n']

/-- Nothing is drawn. -/
def noPaint : Text := "none".toList

/-- The font of the names of control characters. -/
def controlFont : Text := "sans-serif".toList

/-- The size of a label: names of control characters (`none`) are smallest, the first layer is largest unless it is an arrow
of a modifier. -/
def meantSize (modifier : Bool) : Option Nat → Rat
  | none => 36
  | some 1 => if modifier then 72 else 90
  | some _ => 72

/-- The first layer and control characters are regular, other layers are thin. -/
def meantWeight : Option Nat → Text
  | none => "400".toList
  | some 1 => "400".toList
  | some _ => "100".toList

/-- The font of labels. -/
def labelFont : Text := "IBM Plex Sans Arabic".toList

end Lulua.Spec.Css
