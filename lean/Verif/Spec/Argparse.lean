import Verif.Model.Argparse
import Verif.Spec.OptArgs

/-!
# Specification: command lines and what they mean

Command lines as a person would write them: options in any order and as often as they like, with a blank or `=` before their value,
before the other arguments; values do not begin with `-`.
-/

namespace Lulua.Spec
open Lulua

/-- A word that is not mistaken for an option. -/
def PlainWord (t : Text) : Prop := t.head? ≠ some '-'

/-- The program goes on with exactly these attributes. -/
def Gets (r : Except ArgStop (Dict String ArgVal)) (l : List (String × ArgVal)) : Prop :=
  ∃ ns, r = .ok ns ∧ ∀ n v, ns.get? n = some v ↔ (n, v) ∈ l

/-- The short or the long form of an option. -/
def pick (long : Bool) (s l : String) : Text := if long then l.toList else s.toList

/-- How an option with a value is written: `-o value`, `--option value`, `--option=value`. -/
inductive OptForm where
  | short | long | glued
  deriving DecidableEq

/-- The words of an option with a value. -/
def OptForm.words (f : OptForm) (s l : String) (v : Text) : List Text :=
  match f with
  | .short => [s.toList, v]
  | .long => [l.toList, v]
  | .glued => [l.toList ++ '=' :: v]

/-- The words of an option with a value that has no short form. -/
def longWords (glued : Bool) (l : String) (v : Text) : List Text := if glued then [l.toList ++ '=' :: v] else [l.toList, v]

/-- The last value given. -/
def lastOf {α β : Type} (f : α → Option β) (os : List α) : Option β := (os.filterMap f).getLast?

/-- The value of an attribute: the last one given, or else the default. -/
def orElse {α : Type} (x : Option α) (f : α → ArgVal) (d : ArgVal) : ArgVal :=
  match x with
  | some a => f a
  | none => d

/-! ### Options -/

/-- Options `lulua-render`, `lulua-analyze` and `lulua-optimize` have in common. -/
inductive CommonOpt where
  | layout (form : OptForm) (t : Text)
  | keyboard (form : OptForm) (t : Text)

def CommonOpt.words : CommonOpt → List Text
  | .layout f t => f.words "-l" "--layout" t
  | .keyboard f t => f.words "-k" "--keyboard" t

def CommonOpt.Good : CommonOpt → Prop
  | .layout _ t => PlainWord t
  | .keyboard _ t => PlainWord t

def CommonOpt.layout? : CommonOpt → Option Text
  | .layout _ t => some t
  | _ => none

def CommonOpt.keyboard? : CommonOpt → Option Text
  | .keyboard _ t => some t
  | _ => none

/-- Options of `svg`. -/
inductive SvgOpt where
  | style (form : OptForm) (t : Text)
  | heatmap (glued : Bool) (t : Text)

def SvgOpt.words : SvgOpt → List Text
  | .style f t => f.words "-s" "--style" t
  | .heatmap g t => longWords g "--heatmap" t

/-- The files are there. -/
def SvgOpt.Good (w : ArgWorld) : SvgOpt → Prop
  | .style _ t => PlainWord t ∧ w.opens t = true
  | .heatmap _ t => PlainWord t ∧ w.yaml t = .ok ()

def SvgOpt.style? : SvgOpt → Option Text
  | .style _ t => some t
  | _ => none

def SvgOpt.heatmap? : SvgOpt → Option Text
  | .heatmap _ t => some t
  | _ => none

/-- Options of `triadfreq`. -/
inductive TriadOpt where
  | cutoff (form : OptForm) (t : Text) (q : Rat)
  | reverse (long : Bool)
  | sort (form : OptForm) (t : Text)
  | limit (form : OptForm) (n : Nat)

def TriadOpt.words : TriadOpt → List Text
  | .cutoff f t _ => f.words "-c" "--cutoff" t
  | .reverse b => [pick b "-r" "--reverse"]
  | .sort f t => f.words "-s" "--sort" t
  | .limit f n => f.words "-n" "--limit" (decimal n)

def TriadOpt.Good (w : ArgWorld) : TriadOpt → Prop
  | .cutoff _ t q => PlainWord t ∧ w.float t = some q
  | .reverse _ => True
  | .sort _ t => t = "weight".toList ∨ t = "effort".toList ∨ t = "combined".toList
  | .limit _ _ => True

def TriadOpt.cutoff? : TriadOpt → Option Rat
  | .cutoff _ _ q => some q
  | _ => none

def TriadOpt.reverse? : TriadOpt → Option Unit
  | .reverse _ => some ()
  | _ => none

def TriadOpt.sort? : TriadOpt → Option Text
  | .sort _ t => some t
  | _ => none

def TriadOpt.limit? : TriadOpt → Option Nat
  | .limit _ n => some n
  | _ => none

/-- Options of `lulua-write`. -/
inductive WriteOpt where
  | benchmark
  | jobs (form : OptForm) (n : Nat)
  | keyboard (form : OptForm) (t : Text)
  | verbose (long : Bool)

def WriteOpt.words : WriteOpt → List Text
  | .benchmark => ["--benchmark".toList]
  | .jobs f n => f.words "-j" "--jobs" (decimal n)
  | .keyboard f t => f.words "-k" "--keyboard" t
  | .verbose b => [pick b "-v" "--verbose"]

def WriteOpt.Good : WriteOpt → Prop
  | .keyboard _ t => PlainWord t
  | _ => True

def WriteOpt.benchmark? : WriteOpt → Option Unit
  | .benchmark => some ()
  | _ => none

def WriteOpt.jobs? : WriteOpt → Option Nat
  | .jobs _ n => some n
  | _ => none

def WriteOpt.keyboard? : WriteOpt → Option Text
  | .keyboard _ t => some t
  | _ => none

def WriteOpt.verbose? : WriteOpt → Option Unit
  | .verbose _ => some ()
  | _ => none

/-- Options of `lulua-optimize`. -/
inductive OptimizeOpt where
  | common (o : CommonOpt)
  | triadLimit (glued : Bool) (n : Nat)
  | steps (form : OptForm) (n : Nat)
  | randomize (long : Bool)
  | pin (form : OptForm) (ps : List (Int × Option Text))
  | model (form : OptForm) (t : Text)
  | mutate (form : OptForm) (m : (Int × Text) × (Int × Text))

def OptimizeOpt.words : OptimizeOpt → List Text
  | .common o => o.words
  | .triadLimit g n => longWords g "--triad-limit" (decimal n)
  | .steps f n => f.words "-n" "--steps" (decimal n)
  | .randomize b => [pick b "-r" "--randomize"]
  | .pin f ps => f.words "-p" "--pin" (writePins ps)
  | .model f t => f.words "-m" "--model" t
  | .mutate f m => f.words "-s" "--mutate" (writeMutation m)

/-- Pins and mutations are such that they can be written (`C44`); no number is negative, as `-1,…` would be an option. -/
def OptimizeOpt.Good : OptimizeOpt → Prop
  | .common o => o.Good
  | .pin _ ps => ps ≠ [] ∧ (∀ p ∈ ps, 0 ≤ p.1) ∧ ∀ p ∈ ps, ∀ pat, p.2 = some pat → ';' ∉ pat
  | .model _ t => t = "mod01".toList ∨ t = "salvo".toList
  | .mutate _ m => 0 ≤ m.1.1 ∧ (',' ∉ m.1.2 ∧ ':' ∉ m.1.2) ∧ ',' ∉ m.2.2 ∧ ':' ∉ m.2.2
  | _ => True

def OptimizeOpt.layout? : OptimizeOpt → Option Text
  | .common o => o.layout?
  | _ => none

def OptimizeOpt.keyboard? : OptimizeOpt → Option Text
  | .common o => o.keyboard?
  | _ => none

def OptimizeOpt.triadLimit? : OptimizeOpt → Option Nat
  | .triadLimit _ n => some n
  | _ => none

def OptimizeOpt.steps? : OptimizeOpt → Option Nat
  | .steps _ n => some n
  | _ => none

def OptimizeOpt.randomize? : OptimizeOpt → Option Unit
  | .randomize _ => some ()
  | _ => none

def OptimizeOpt.pin? : OptimizeOpt → Option (List (Int × Option Text))
  | .pin _ ps => some ps
  | _ => none

def OptimizeOpt.model? : OptimizeOpt → Option Text
  | .model _ t => some t
  | _ => none

def OptimizeOpt.mutate? : OptimizeOpt → Option ((Int × Text) × (Int × Text))
  | .mutate _ m => some m
  | _ => none

/-- Options of `lulua-report`: each has one or more values. -/
inductive ReportOpt where
  | corpus (long : Bool) (ts : List Text)
  | layoutstats (long : Bool) (ts : List Text)

def ReportOpt.words : ReportOpt → List Text
  | .corpus b ts => pick b "-c" "--corpus" :: ts
  | .layoutstats b ts => pick b "-l" "--layoutstats" :: ts

def ReportOpt.Good : ReportOpt → Prop
  | .corpus _ ts => ts ≠ [] ∧ ∀ t ∈ ts, PlainWord t
  | .layoutstats _ ts => ts ≠ [] ∧ ∀ t ∈ ts, PlainWord t

def ReportOpt.corpus? : ReportOpt → Option (List Text)
  | .corpus _ ts => some ts
  | _ => none

def ReportOpt.layoutstats? : ReportOpt → Option (List Text)
  | .layoutstats _ ts => some ts
  | _ => none

/-! ### Commands -/

/-- The formats of `lulua-render` besides pictures, and the functions that write them. -/
def formats : List (String × String) :=
  [("xmodmap", "renderXmodmap"), ("keyman", "renderKeyman"), ("ask", "renderAsk"), ("winkbd", "renderWinKbd"),
    ("keylayout", "renderKeylayout"), ("klavaro", "renderKlavaro")]

/-- The commands of `lulua-analyze` that have no options, and their functions. -/
def analyses : List (String × String) :=
  [("pretty", "pretty"), ("combine", "combine"), ("letterfreq", "letterfreq"), ("triadeffortdata", "triadEffortData"),
    ("triadeffortplot", "triadEffortPlot"), ("keyheatmap", "keyHeatmap"), ("layoutstats", "layoutstats"),
    ("latinime", "latinImeDict")]

/-- The attributes the common options make. -/
def commonAttrs (os : List CommonOpt) : List (String × ArgVal) :=
  [("layout", orElse (lastOf CommonOpt.layout? os) .text .none),
    ("keyboard", orElse (lastOf CommonOpt.keyboard? os) .text (.text "ibmpc105".toList))]

/-- The attributes of `lulua-write`. -/
def writeAttrs (w : ArgWorld) (os : List WriteOpt) (layout filter : ArgVal) : Dict String ArgVal :=
  [("benchmark", orElse (lastOf WriteOpt.benchmark? os) (fun _ => .flag true) (.flag false)),
    ("jobs", orElse (lastOf WriteOpt.jobs? os) (fun n => .int n) (.int w.cpus)),
    ("keyboard", orElse (lastOf WriteOpt.keyboard? os) .text (.text "ibmpc105".toList)),
    ("verbose", orElse (lastOf WriteOpt.verbose? os) (fun _ => .flag true) (.flag false)), ("layout", layout), ("filter", filter)]

/-- The attributes of `lulua-optimize`. -/
def optimizeAttrs (os : List OptimizeOpt) : Dict String ArgVal :=
  [("layout", orElse (lastOf OptimizeOpt.layout? os) .text .none),
    ("keyboard", orElse (lastOf OptimizeOpt.keyboard? os) .text (.text "ibmpc105".toList)),
    ("triadLimit", orElse (lastOf OptimizeOpt.triadLimit? os) (fun n => .int n) (.int 0)),
    ("steps", orElse (lastOf OptimizeOpt.steps? os) (fun n => .int n) (.int 10000)),
    ("randomize", orElse (lastOf OptimizeOpt.randomize? os) (fun _ => .flag true) (.flag false)),
    ("pin", orElse (lastOf OptimizeOpt.pin? os) .pins (.pins [])),
    ("model", orElse (lastOf OptimizeOpt.model? os) .text (.text "mod01".toList)),
    ("mutate", .mutations (os.filterMap OptimizeOpt.mutate?))]

end Lulua.Spec
