import Verif.Model.Writer

/-!
# What the report says about the layouts (C116)

The text of the report (`data/report/index.html`) describes where letters are on the shipped layouts. Every sentence that
says in which row a letter is, or with which hand or finger it is typed, is a `Claim` here; the line is that of the sentence.
-/

namespace Lulua.Spec

/-- The rows of the keyboard as the report calls them. -/
inductive BoardRow where
  | number | top | home | bottom
  deriving DecidableEq, Repr

/-- How many rows are above. -/
def BoardRow.index : BoardRow → Nat
  | .number => 0
  | .top => 1
  | .home => 2
  | .bottom => 3

/-- A statement about a letter of a layout. What is not said is `none`. -/
structure Claim where
  line : Nat
  layout : String
  text : Text
  layer : Option Nat := none
  row : Option BoardRow := none
  hand : Option Direction := none
  finger : Option Finger := none
  deriving DecidableEq, Repr

/-- The claims of the report. -/
def claims : List Claim :=
  -- “The most frequent letters have all been assigned to the home row”, those being named in lines 602 to 678
  ([['ا'], ['ل'], ['ي'], ['و'], ['ن'], ['م'], ['ت'], ['ر'], ['ب']].map fun x =>
    { line := 336, layout := "ar-lulua", text := x, layer := some 0, row := some .home }) ++
  [ -- “Alif and lam are typed with different hands”, “the left middle finger is used more frequently due to its
    -- assignment to the letter alif”
    { line := 340, layout := "ar-lulua", text := ['ا'], hand := some .left, finger := some .middle },
    { line := 340, layout := "ar-lulua", text := ['ل'], hand := some .right },
    -- “provide hamzah as a combining character”, “fit on a single keyboard layer”
    { line := 373, layout := "ar-lulua", text := ['ٔ'], layer := some 0 },
    -- “it overuses the right index finger by assigning the four high-frequency letters alif, ta, waw and tamarbutah to it”
    { line := 522, layout := "ar-asmo663", text := ['ا'], hand := some .right, finger := some .index },
    { line := 522, layout := "ar-asmo663", text := ['ت'], hand := some .right, finger := some .index },
    { line := 522, layout := "ar-asmo663", text := ['و'], hand := some .right, finger := some .index },
    { line := 522, layout := "ar-asmo663", text := ['ة'], hand := some .right, finger := some .index },
    -- “moving the tamarbutah to a hard to reach spot on the right of the top row”
    { line := 546, layout := "ar-osx", text := ['ة'], row := some .top, hand := some .right },
    -- “moves the short vowels from the first to the top row of the second layer”
    { line := 549, layout := "ar-asmo663", text := ['َ'], layer := some 0 },
    { line := 549, layout := "ar-asmo663", text := ['ُ'], layer := some 0 },
    { line := 549, layout := "ar-asmo663", text := ['ِ'], layer := some 0 },
    { line := 549, layout := "ar-osx", text := ['َ'], layer := some 1, row := some .top },
    { line := 549, layout := "ar-osx", text := ['ُ'], layer := some 1, row := some .top },
    { line := 549, layout := "ar-osx", text := ['ِ'], layer := some 1, row := some .top },
    -- “the bottom row now contains a separate key for the ligature lamalif”, “pushing punctuation characters to the second
    -- layer, dal into the top and dhal even further into the number row”
    { line := 578, layout := "ar-linux", text := ['ل', 'ا'], layer := some 0, row := some .bottom },
    { line := 583, layout := "ar-linux", text := ['.'], layer := some 1 },
    { line := 583, layout := "ar-linux", text := ['،'], layer := some 1 },
    { line := 584, layout := "ar-linux", text := ['د'], row := some .top },
    { line := 584, layout := "ar-linux", text := ['ذ'], row := some .number },
    -- “it favors the left hand by assigning alif and lam to it”
    { line := 639, layout := "ar-alramly", text := ['ا'], hand := some .left },
    { line := 639, layout := "ar-alramly", text := ['ل'], hand := some .left },
    -- “placing both alif and ya in the top row”, “placing alif, lam, ya and waw on the right hand side”
    { line := 684, layout := "ar-idlebi", text := ['ا'], row := some .top, hand := some .right },
    { line := 684, layout := "ar-idlebi", text := ['ي'], row := some .top, hand := some .right },
    { line := 690, layout := "ar-idlebi", text := ['ل'], hand := some .right },
    { line := 690, layout := "ar-idlebi", text := ['و'], hand := some .right },
    -- “put ya in the top row”, “Assigning the same left index finger to alif, ya and waw”
    { line := 718, layout := "ar-malas", text := ['ي'], row := some .top, hand := some .left, finger := some .index },
    { line := 721, layout := "ar-malas", text := ['ا'], hand := some .left, finger := some .index },
    { line := 721, layout := "ar-malas", text := ['و'], hand := some .left, finger := some .index },
    -- “favor the bottom row”, “it places the letters ba, ta and ra there”
    { line := 757, layout := "ar-khorshid", text := ['ب'], row := some .bottom },
    { line := 757, layout := "ar-khorshid", text := ['ت'], row := some .bottom },
    { line := 757, layout := "ar-khorshid", text := ['ر'], row := some .bottom } ]

/-- What a claim says of a combination typing the letter: it is one button, pressed with the modifier of the layer, and the
button is in the row and under the hand and finger. -/
def Claim.Holds (c : Claim) (hf : HandFinger) (kb : PhysicalKeyboard) (layers : List Layer) (comb : Comb) : Prop :=
  ∃ (i : Nat) (hi : i < layers.length) (b : Button), comb.modifier ∈ layers[i].modifier ∧ comb.buttons = [b] ∧
    (∀ j, c.layer = some j → i = j) ∧
    (∀ r, c.row = some r → kb.getRow b = .ok r.index) ∧
    ∃ h f, hf b = .ok (h, f) ∧ (∀ h', c.hand = some h' → h = h') ∧ ∀ f', c.finger = some f' → f = f'

end Lulua.Spec
