import Verif.Model.Page

/-!
# Model of `gen.sh` and of the build file `lulua/data/winkbd/build.ninja`

`gen.sh` writes a build file for ninja. Its statements depend on the directory tree: on the corpora, their files and the
files of the Windows driver. A path is the list of its components, which is ninja's canonical form of it. Names are assumed to be free
of white space and of the characters special to ninja, `$`, `:` and `|`.
-/

namespace Lulua

/-- Components of a path. -/
abbrev Path := List String

/-- A path as text. -/
def pathText (p : Path) : Text := ['/'].intercalate (p.map String.toList)

/-- A `build` statement. The values of variables are expanded already. -/
structure Build where
  outs : List Path
  rule : String
  ins : List Path := []
  implicit : List Path := []
  orderOnly : List Path := []
  vars : Dict String Text := []

/-- The directory tree `gen.sh` looks at (`gen.sh:7,161,184-188`): `ls corpus`, `ls lulua/data/winkbd` and the results of
`find` for five of the corpora. -/
structure GenWorld where
  corpora : List String
  winkbd : List String
  bbcarabic : List Path
  aljazeera : List Path
  un : List Path
  opensubtitles : List Path
  hindawi : List Path

/-! ### Settings and rules -/

/-- `$reportdir` (`gen.sh:14`). -/
def reportdir : Path := ["_build", "report"]

/-- `$tempdir` (`gen.sh:15`). -/
def tempdir : Path := ["_build", "_temp"]

/-- `$statsdir` (`gen.sh:16`). -/
def statsdir : Path := ["_build", "_stats"]

/-- `$datadir` (`gen.sh:17`). -/
def datadir : Path := ["lulua", "data"]

/-- `$corpusdir` (`gen.sh:4,18`). -/
def corpusdir : Path := ["corpus"]

/-- `$osmconvert` (`gen.sh:20`). -/
def osmconvert : Path := ["3rdparty", "osmctools", "src", "osmconvert"]

/-- `$fontdir` (`gen.sh:21`). -/
def fontdir : Path := ["3rdparty", "plex", "IBM-Plex-Sans-Arabic", "fonts", "complete", "woff2"]

/-- Settings used by commands (`gen.sh:12-25`). -/
def settings : Dict String Text :=
  [("builddir", "_build".toList), ("reportdir", "_build/report".toList), ("tempdir", "_build/_temp".toList),
    ("statsdir", "_build/_stats".toList), ("datadir", "lulua/data".toList), ("corpusdir", "corpus".toList),
    ("wikiextractor", "3rdparty/wikiextractor/WikiExtractor.py".toList),
    ("osmconvert", "3rdparty/osmctools/src/osmconvert".toList),
    ("fontdir", "3rdparty/plex/IBM-Plex-Sans-Arabic/fonts/complete/woff2/".toList), ("optrounds", "100000".toList),
    ("optpins", "0;1;2;0,B*;3,*".toList), ("optmodel", "mod01".toList)]

/-- The commands of the rules (`gen.sh:33-133`), without `\` before `$`, which is for the shell. -/
def rules : Dict String Text :=
  [("opt", "lulua-optimize -n $optrounds -r -p $optpins -l ar-lulua -m $optmodel < $in > $out".toList),
    ("render-svg", "lulua-render -l $layout svg $out".toList),
    ("render-svg-print", "lulua-render -l $layout svg -s lulua/data/render-svg-print.css $out".toList),
    ("svg2pdf", "rsvg-convert -f pdf $in > $out".toList),
    ("render-svg-heat", "lulua-render -l $layout svg --heatmap=$in $out".toList),
    ("render-xmodmap", "lulua-render -l $layout xmodmap $out".toList),
    ("analyze-heat", "lulua-analyze -l $layout keyheatmap < $in > $out".toList),
    ("write-bbcarabic", "find $in | lulua-write $layout file brotli tar bbcarabic | lulua-analyze combine > $out".toList),
    ("write-aljazeera", "find $in | lulua-write $layout file brotli tar aljazeera | lulua-analyze combine > $out".toList),
    ("write-epub", "find $in | lulua-write $layout epub | lulua-analyze combine > $out".toList),
    ("write-tanzil", "find $in | lulua-write $layout file text | lulua-analyze combine > $out".toList),
    ("write-tei2", "find $in | lulua-write $layout file brotli tar xml tei2 | lulua-analyze combine > $out".toList),
    ("write-opensubtitles",
      "find $in | lulua-write $layout file brotli tar xml opensubtitles | lulua-analyze combine > $out".toList),
    ("write-arwiki",
      ("$wikiextractor -ns 0 --json -o - $in 2>/dev/null | jq .text | " ++
        "lulua-write $layout json | lulua-analyze combine > $out").toList),
    ("write-osm",
      "$osmconvert --csv='name:ar' $in | sort -u | lulua-write $layout lines | lulua-analyze combine > $out".toList),
    ("combine", "cat $in | lulua-analyze combine > $out".toList),
    ("mkdir", "mkdir -p $out".toList),
    ("letterfreq", "lulua-analyze -l ar-lulua letterfreq < $in > $out".toList),
    ("analyze-layoutstats", "lulua-analyze -l $layout layoutstats < $in > $out".toList),
    ("analyze-corpusstats", "lulua-analyze -l ar-lulua corpusstats $metadata < $stats > $out".toList),
    ("wordlist", "lulua-analyze -l ar-lulua latinime < $in > $out".toList),
    ("analyze-triadeffortdata", "lulua-analyze -l $layout triadeffortdata < $in > $out".toList),
    ("analyze-triadeffortplot", "cat $in | lulua-analyze -l ar-lulua triadeffortplot > $out".toList),
    ("report", "lulua-report -c $corpus -l $layoutstats > $out".toList),
    ("cp", "cp $in $out".toList),
    ("gz", "gzip -c $in > $out".toList),
    ("configure-make", "cd $in && autoreconf --install && ./configure && make".toList),
    ("zipR", "./makezip.sh $in $out".toList),
    ("render-winkbd", "lulua-render -l ar-lulua winkbd $out".toList),
    ("render-klavaro", "lulua-render -l ar-lulua klavaro $out".toList),
    ("ninjaC", "ninja -C $dir".toList),
    ("phony", [])]

/-- The rules of the driver (`build.ninja:6-16`). -/
def driverRules : Dict String Text :=
  [("mkdir", "mkdir -p $out".toList),
    ("res", "x86_64-w64-mingw32-windres --target=$target $in $out".toList),
    ("cc", "x86_64-w64-mingw32-gcc -m$bits $cflags $ldflags -o $out $in".toList)]

/-- The settings of the driver (`build.ninja:2-4`). -/
def driverSettings : Dict String Text :=
  [("imageBase", "0x5FFF0000".toList),
    ("ldflags", ("-shared -nostartfiles -nodefaultlibs -s -Wl,--subsystem,native:5.01 " ++
      "-Wl,--image-base,0x5FFF0000 -Wl,-entry,0 -Wl,-T,linker.ld").toList),
    ("cflags", "-Wall -Wextra -Werror".toList)]

/-! ### Statements -/

/-- `build $out: mkdir`. -/
def mkdirBuild (out : Path) : Build := { outs := [out], rule := "mkdir" }

/-- The first statements (`gen.sh:136-158`). `${l}` is empty there. -/
def firstBuilds : List Build :=
  [mkdirBuild reportdir,
    mkdirBuild (reportdir ++ ["fonts"]),
    mkdirBuild tempdir,
    { outs := [reportdir ++ ["letterfreq.json"]], rule := "letterfreq", ins := [statsdir ++ ["ar-lulua", "all.pickle"]],
      orderOnly := [reportdir] },
    { outs := [reportdir ++ ["style.css"]], rule := "cp", ins := [datadir ++ ["report", "style.css"]], orderOnly := [reportdir] },
    { outs := [reportdir ++ ["lulua-logo.svg"]], rule := "cp", ins := [datadir ++ ["report", "lulua-logo.svg"]],
      orderOnly := [reportdir] },
    { outs := [tempdir ++ ["lulua.combined"]], rule := "wordlist", ins := [statsdir ++ ["ar-lulua", "all.pickle"]],
      orderOnly := [tempdir] },
    { outs := [reportdir ++ ["lulua.combined.gz"]], rule := "gz", ins := [tempdir ++ ["lulua.combined"]],
      orderOnly := [reportdir] },
    { outs := [reportdir ++ ["fonts", "IBMPlexSansArabic-Regular.woff2"]], rule := "cp",
      ins := [fontdir ++ ["IBMPlexSansArabic-Regular.woff2"]], orderOnly := [reportdir ++ ["fonts"]] },
    { outs := [reportdir ++ ["fonts", "IBMPlexSansArabic-Thin.woff2"]], rule := "cp",
      ins := [fontdir ++ ["IBMPlexSansArabic-Thin.woff2"]], orderOnly := [reportdir ++ ["fonts"]] },
    { outs := [osmconvert], rule := "configure-make", ins := [["3rdparty", "osmctools"]] },
    { outs := [reportdir ++ ["lulua_ar.kbd"]], rule := "render-klavaro", orderOnly := [reportdir], vars := [("layout", [])] },
    { outs := [tempdir ++ ["winkbd"]], rule := "mkdir", ins := [["lulua", "data", "winkbd"]] }]

/-- `$tempdir/winkbd/…`. -/
def winkbdFile (f : String) : Path := tempdir ++ ["winkbd", f]

/-- Copies of the files of the driver (`gen.sh:161-162`). -/
def winkbdBuild (f : String) : Build :=
  { outs := [winkbdFile f], rule := "cp", ins := [["lulua", "data", "winkbd", f]], orderOnly := [tempdir ++ ["winkbd"]] }

/-- `w64zipfile` (`gen.sh:173`), as paths. -/
def zipPaths : List Path :=
  [["System32", "kbdarlulua.dll"], ["SysWOW64", "kbdarlulua.dll"], ["README.txt"], ["lulua.reg"], ["install.bat"]]

/-- The driver and the archive (`gen.sh:163-180`). -/
def driverBuilds (w : GenWorld) : List Build :=
  [{ outs := [winkbdFile "keyboard.c"], rule := "render-winkbd", orderOnly := [tempdir ++ ["winkbd"]] },
    mkdirBuild (tempdir ++ ["ar-lulua-w64"]),
    { outs := [tempdir ++ ["winkbd", "System32", "kbdarlulua.dll"], tempdir ++ ["winkbd", "SysWOW64", "kbdarlulua.dll"]],
      rule := "ninjaC", implicit := w.winkbd.map winkbdFile ++ [winkbdFile "keyboard.c"],
      vars := [("dir", pathText (tempdir ++ ["winkbd"]))] }] ++
  zipPaths.map (fun f =>
    { outs := [tempdir ++ "ar-lulua-w64" :: f], rule := "cp", ins := [tempdir ++ "winkbd" :: f],
      orderOnly := [tempdir ++ ["ar-lulua-w64"]] }) ++
  [{ outs := [reportdir ++ ["ar-lulua-w64.zip"]], rule := "zipR", ins := [tempdir ++ ["ar-lulua-w64"]],
     implicit := zipPaths.map fun f => tempdir ++ "ar-lulua-w64" :: f }]

/-- `$statsdir/${l}/…`. -/
def statsFile (l f : String) : Path := statsdir ++ [l, f]

/-- The rule and the files for the statistics of every corpus (`gen.sh:195-216`). -/
def corpusSources (w : GenWorld) : List (String × String × List Path) :=
  [("bbcarabic", "write-bbcarabic", w.bbcarabic), ("aljazeera", "write-aljazeera", w.aljazeera),
    ("hindawi", "write-epub", w.hindawi), ("tanzil-quaran", "write-tanzil", [corpusdir ++ ["tanzil-quaran", "plain.txt"]]),
    ("arwiki", "write-arwiki", [corpusdir ++ ["arwiki", "arwiki-20190701-pages-articles.xml.bz2"]]),
    ("osm", "write-osm", [corpusdir ++ ["osm", "planet-191104.osm.pbf"]]), ("un-v1.0-tei", "write-tei2", w.un),
    ("opensubtitles-2018", "write-opensubtitles", w.opensubtitles)]

/-- The statistics of a corpus for a layout; `osm` needs `osmconvert` (`gen.sh:195-217`). -/
def corpusBuild (l : String) (c : String × String × List Path) : Build :=
  { outs := [statsFile l (c.1 ++ ".pickle")], rule := c.2.1, ins := c.2.2,
    orderOnly := (statsdir ++ [l]) :: if c.1 = "osm" then [osmconvert] else [], vars := [("layout", l.toList)] }

/-- Inputs of `all.pickle` (`gen.sh:219`). -/
def allInputs : List String :=
  ["bbcarabic", "aljazeera", "tanzil-quaran", "arwiki", "osm", "hindawi", "un-v1.0-tei", "opensubtitles-2018"]

/-- Targets for every layout (`gen.sh:191-244`). -/
def layoutBuilds (w : GenWorld) (l : String) : List Build :=
  mkdirBuild (statsdir ++ [l]) :: (corpusSources w).map (corpusBuild l) ++
  [{ outs := [statsFile l "all.pickle"], rule := "combine", ins := allInputs.map fun c => statsFile l (c ++ ".pickle"),
     orderOnly := [statsdir ++ [l]] },
    { outs := [reportdir ++ [l ++ ".svg"]], rule := "render-svg", orderOnly := [reportdir], vars := [("layout", l.toList)] },
    { outs := [tempdir ++ [l ++ "-heat.yaml"]], rule := "analyze-heat", ins := [statsFile l "all.pickle"],
      orderOnly := [tempdir], vars := [("layout", l.toList)] },
    { outs := [tempdir ++ [l ++ "-triadeffort.pickle"]], rule := "analyze-triadeffortdata",
      ins := [statsFile l "all.pickle"], orderOnly := [tempdir], vars := [("layout", l.toList)] },
    { outs := [reportdir ++ [l ++ "-heat.svg"]], rule := "render-svg-heat", ins := [tempdir ++ [l ++ "-heat.yaml"]],
      orderOnly := [reportdir], vars := [("layout", l.toList)] },
    { outs := [tempdir ++ [l ++ "-print.svg"]], rule := "render-svg-print", orderOnly := [tempdir],
      vars := [("layout", l.toList)] },
    { outs := [reportdir ++ [l ++ ".pdf"]], rule := "svg2pdf", ins := [tempdir ++ [l ++ "-print.svg"]],
      orderOnly := [reportdir] },
    { outs := [tempdir ++ [l ++ "-layoutstats.pickle"]], rule := "analyze-layoutstats", ins := [statsFile l "all.pickle"],
      orderOnly := [tempdir], vars := [("layout", l.toList)] }]

/-- `layoutsXmodmap` (`gen.sh:6,247-253`). -/
def xmodmapBuild (l : String) : Build :=
  { outs := [reportdir ++ [l ++ ".xmodmap"]], rule := "render-xmodmap", orderOnly := [reportdir], vars := [("layout", l.toList)] }

/-- `$corpusdir/$c/metadata.yaml`. -/
def metadataFile (c : String) : Path := corpusdir ++ [c, "metadata.yaml"]

/-- `$tempdir/metadata-$c.yaml`. -/
def metaOut (c : String) : Path := tempdir ++ ["metadata-" ++ c ++ ".yaml"]

/-- Statistics for each corpus (`gen.sh:257-265`). -/
def metaBuild (c : String) : Build :=
  { outs := [metaOut c], rule := "analyze-corpusstats", ins := [statsFile "ar-lulua" (c ++ ".pickle"), metadataFile c],
    orderOnly := [tempdir, metadataFile c],
    vars := [("metadata", pathText (metadataFile c)), ("stats", pathText (statsFile "ar-lulua" (c ++ ".pickle")))] }

/-- Several paths separated by blanks. -/
def pathsText (ps : List Path) : Text := [' '].intercalate (ps.map pathText)

/-- `$tempdir/${l}-layoutstats.pickle`. -/
def layoutstatsFile (l : String) : Path := tempdir ++ [l ++ "-layoutstats.pickle"]

/-- The last statements (`gen.sh:267-279`). -/
def lastBuilds (w : GenWorld) : List Build :=
  [{ outs := [reportdir ++ ["triadeffort.json"]], rule := "analyze-triadeffortplot",
     ins := genLayouts.map fun l => tempdir ++ [l ++ "-triadeffort.pickle"], orderOnly := [reportdir] },
    { outs := [["always"]], rule := "phony" },
    { outs := [reportdir ++ ["index.html"]], rule := "report", implicit := [["always"]],
      orderOnly := reportdir :: (w.corpora.map metaOut ++ genLayouts.map layoutstatsFile),
      vars := [("corpus", pathsText (w.corpora.map metaOut)), ("layoutstats", pathsText (genLayouts.map layoutstatsFile))] }]

/-- All statements `gen.sh` writes. -/
def genBuild (w : GenWorld) : List Build :=
  firstBuilds ++ w.winkbd.map winkbdBuild ++ driverBuilds w ++ genLayouts.flatMap (layoutBuilds w) ++
    ["ar-lulua"].map xmodmapBuild ++ w.corpora.map metaBuild ++ lastBuilds w

/-- The statements for the driver (`lulua/data/winkbd/build.ninja:18-31`); paths are relative to `$tempdir/winkbd`. -/
def driverBuild : List Build :=
  [{ outs := [["System32", "kbdarlulua.dll"]], rule := "cc", ins := [["keyboard.c"], ["keyboard.def"], ["rc64.o"]],
     implicit := [["linker.ld"]], orderOnly := [["System32"]], vars := [("bits", "64".toList)] },
    { outs := [["SysWOW64", "kbdarlulua.dll"]], rule := "cc", ins := [["keyboard.c"], ["keyboard.def"], ["rc32.o"]],
      implicit := [["linker.ld"]], orderOnly := [["SysWOW64"]], vars := [("bits", "32".toList)] },
    { outs := [["rc64.o"]], rule := "res", ins := [["keyboard.rc"]], vars := [("target", "pe-x86-64".toList)] },
    { outs := [["rc32.o"]], rule := "res", ins := [["keyboard.rc"]], vars := [("target", "pe-i386".toList)] },
    mkdirBuild ["System32"],
    mkdirBuild ["SysWOW64"]]

/-- `ls lulua/data/winkbd`. -/
def shippedWinkbd : List String :=
  ["README.txt", "build.ninja", "install.bat", "keyboard.def", "keyboard.rc", "linker.ld", "lulua.reg"]

/-- `ls corpus`. -/
def shippedCorpora : List String :=
  ["aljazeera", "arwiki", "bbcarabic", "hindawi", "opensubtitles-2018", "osm", "tanzil-quaran", "un-v1.0-tei"]

/-- Files `install.bat` uses, relative to its directory. Windows does not distinguish lower and upper case. -/
def installUses : List Path := [["system32", "kbdarlulua.dll"], ["syswow64", "kbdarlulua.dll"], ["lulua.reg"]]

/-! ### Ninja -/

/-- Letters of names of variables after `$`. -/
def varChar (c : Char) : Bool := c.isAlphanum || c == '_' || c == '-'

/-- A command as ninja's lexer sees it: text and variables. `${…}` and `$$` are not used. -/
inductive CmdPart where
  | text (t : Text)
  | var (name : String)
  deriving DecidableEq

/-- Splitting of a command at `$`: what precedes the first one, and for each the name and what follows. -/
def cmdParts (s : Text) : List CmdPart :=
  match s.splitOn '$' with
  | [] => []
  | t :: rest => .text t :: rest.flatMap fun r => [.var (String.ofList (r.takeWhile varChar)), .text (r.dropWhile varChar)]

/-- The value of a variable for a statement: `in`, `out`, the variables of the statement, then the settings. -/
def Build.lookup (settings : Dict String Text) (b : Build) (n : String) : Option Text :=
  if n = "in" then some (pathsText b.ins)
  else if n = "out" then some (pathsText b.outs)
  else match b.vars.get? n with
    | some t => some t
    | none => settings.get? n

/-- The command ninja runs; variables without a value are empty. -/
def Build.command (settings rules : Dict String Text) (b : Build) : Option Text :=
  (rules.get? b.rule).map fun c => (cmdParts c).flatMap fun
    | .text t => t
    | .var n => (b.lookup settings n).getD []

/-- Everything that must be there before the command runs. -/
def Build.deps (b : Build) : List Path := b.ins ++ b.implicit ++ b.orderOnly

end Lulua
