import Verif.Spec.Ninja

/-!
# Specification: what the commands of the build file do

The files a command reads and writes, as the shell and the programs see them, and the command lines themselves.
-/

namespace Lulua.Spec
open Lulua

/-! ### A little of the shell -/

/-- Words of a command line. -/
def cmdWords (c : Text) : List Text := (c.splitOn ' ').filter (· ≠ [])

/-- Programs of a pipeline or of a list of commands, each with its arguments. -/
def stages (c : Text) : List (List Text) := (cmdWords c).splitOnP fun x => x = "|".toList ∨ x = "&&".toList ∨ x = ";".toList

/-- The words after a given one. -/
def nextTo (x : Text) : List Text → List Text
  | [] => []
  | [_] => []
  | a :: b :: r => (if a = x then [b] else []) ++ nextTo x (b :: r)

/-- Arguments without redirections. -/
def plainArgs : List Text → List Text
  | [] => []
  | [a] => if a = "2>/dev/null".toList then [] else [a]
  | a :: b :: r =>
    if a = "<".toList ∨ a = ">".toList then plainArgs r
    else if a = "2>/dev/null".toList then plainArgs (b :: r) else a :: plainArgs (b :: r)

/-- What follows a prefix. -/
def afterPrefix (p a : Text) : Option Text := if p.isPrefixOf a then some (a.drop p.length) else none

/-- Words naming files a program reads: its standard input and what its manual says. -/
def readsOf : List Text → List Text
  | [] => []
  | prog :: args =>
    nextTo "<".toList args ++
    if prog ∈ ["cat", "find", "rsvg-convert", "gzip", "cd", "x86_64-w64-mingw32-gcc", "$wikiextractor", "$osmconvert"].map String.toList then
      (plainArgs args).getLast?.toList
    else if prog ∈ ["cp", "./makezip.sh", "x86_64-w64-mingw32-windres"].map String.toList then
      (plainArgs args).dropLast.getLast?.toList
    else if prog = "lulua-render".toList then
      args.filterMap (afterPrefix "--heatmap=".toList) ++ nextTo "-s".toList args
    else if prog = "lulua-report".toList then nextTo "-c".toList args ++ nextTo "-l".toList args
    else if prog = "lulua-analyze".toList then nextTo "corpusstats".toList args
    else []

/-- Words naming files a program writes. -/
def writesOf : List Text → List Text
  | [] => []
  | prog :: args =>
    nextTo ">".toList args ++
    if prog ∈ ["cp", "./makezip.sh", "lulua-render", "mkdir", "x86_64-w64-mingw32-windres"].map String.toList then
      (plainArgs args).getLast?.toList
    else if prog = "x86_64-w64-mingw32-gcc".toList then nextTo "-o".toList args
    else []

/-- Files a whole command line reads. -/
def reads (c : Text) : List Text := (stages c).flatMap readsOf

/-- Files a whole command line writes. -/
def writes (c : Text) : List Text := (stages c).flatMap writesOf

/-- Several files are given by a variable. -/
def Gives (settings : Dict String Text) (b : Build) (x : Text) (ps : List Path) : Prop :=
  ∃ n, x = '$' :: n.toList ∧ b.lookup settings n = some (pathsText ps)

/-! ### Command lines -/

/-- Everything made for a layout, and how. -/
def layoutLines (l : String) : List (Path × List String) :=
  [(["_build", "_stats", l], ["mkdir -p _build/_stats/", l]),
    (["_build", "report", l ++ ".svg"], ["lulua-render -l ", l, " svg _build/report/", l, ".svg"]),
    (["_build", "_temp", l ++ "-heat.yaml"],
      ["lulua-analyze -l ", l, " keyheatmap < _build/_stats/", l, "/all.pickle > _build/_temp/", l, "-heat.yaml"]),
    (["_build", "_temp", l ++ "-triadeffort.pickle"],
      ["lulua-analyze -l ", l, " triadeffortdata < _build/_stats/", l, "/all.pickle > _build/_temp/", l, "-triadeffort.pickle"]),
    (["_build", "report", l ++ "-heat.svg"],
      ["lulua-render -l ", l, " svg --heatmap=_build/_temp/", l, "-heat.yaml _build/report/", l, "-heat.svg"]),
    (["_build", "_temp", l ++ "-print.svg"],
      ["lulua-render -l ", l, " svg -s lulua/data/render-svg-print.css _build/_temp/", l, "-print.svg"]),
    (["_build", "report", l ++ ".pdf"], ["rsvg-convert -f pdf _build/_temp/", l, "-print.svg > _build/report/", l, ".pdf"]),
    (["_build", "_temp", l ++ "-layoutstats.pickle"],
      ["lulua-analyze -l ", l, " layoutstats < _build/_stats/", l, "/all.pickle > _build/_temp/", l, "-layoutstats.pickle"])]

/-- What comes before `lulua-write` for a corpus. -/
def sourceLine (w : GenWorld) : List (String × Text) :=
  [("bbcarabic", "find ".toList ++ pathsText w.bbcarabic ++ " ".toList),
    ("aljazeera", "find ".toList ++ pathsText w.aljazeera ++ " ".toList),
    ("hindawi", "find ".toList ++ pathsText w.hindawi ++ " ".toList),
    ("tanzil-quaran", "find corpus/tanzil-quaran/plain.txt ".toList),
    ("arwiki", ("3rdparty/wikiextractor/WikiExtractor.py -ns 0 --json -o - " ++
      "corpus/arwiki/arwiki-20190701-pages-articles.xml.bz2 2>/dev/null | jq .text ").toList),
    ("osm", "3rdparty/osmctools/src/osmconvert --csv='name:ar' corpus/osm/planet-191104.osm.pbf | sort -u ".toList),
    ("un-v1.0-tei", "find ".toList ++ pathsText w.un ++ " ".toList),
    ("opensubtitles-2018", "find ".toList ++ pathsText w.opensubtitles ++ " ".toList)]

/-- Files made once, and how. -/
def onceLines : List (Path × String) :=
  [(["_build", "report"], "mkdir -p _build/report"),
    (["_build", "report", "fonts"], "mkdir -p _build/report/fonts"),
    (["_build", "_temp"], "mkdir -p _build/_temp"),
    (["_build", "report", "letterfreq.json"],
      "lulua-analyze -l ar-lulua letterfreq < _build/_stats/ar-lulua/all.pickle > _build/report/letterfreq.json"),
    (["_build", "report", "style.css"], "cp lulua/data/report/style.css _build/report/style.css"),
    (["_build", "report", "lulua-logo.svg"], "cp lulua/data/report/lulua-logo.svg _build/report/lulua-logo.svg"),
    (["_build", "_temp", "lulua.combined"],
      "lulua-analyze -l ar-lulua latinime < _build/_stats/ar-lulua/all.pickle > _build/_temp/lulua.combined"),
    (["_build", "report", "lulua.combined.gz"], "gzip -c _build/_temp/lulua.combined > _build/report/lulua.combined.gz"),
    (["_build", "report", "fonts", "IBMPlexSansArabic-Regular.woff2"],
      "cp 3rdparty/plex/IBM-Plex-Sans-Arabic/fonts/complete/woff2/IBMPlexSansArabic-Regular.woff2 " ++
        "_build/report/fonts/IBMPlexSansArabic-Regular.woff2"),
    (["_build", "report", "fonts", "IBMPlexSansArabic-Thin.woff2"],
      "cp 3rdparty/plex/IBM-Plex-Sans-Arabic/fonts/complete/woff2/IBMPlexSansArabic-Thin.woff2 " ++
        "_build/report/fonts/IBMPlexSansArabic-Thin.woff2"),
    (["3rdparty", "osmctools", "src", "osmconvert"],
      "cd 3rdparty/osmctools && autoreconf --install && ./configure && make"),
    (["_build", "report", "lulua_ar.kbd"], "lulua-render -l ar-lulua klavaro _build/report/lulua_ar.kbd"),
    (["_build", "_temp", "winkbd"], "mkdir -p _build/_temp/winkbd"),
    (["_build", "_temp", "winkbd", "keyboard.c"], "lulua-render -l ar-lulua winkbd _build/_temp/winkbd/keyboard.c"),
    (["_build", "_temp", "ar-lulua-w64"], "mkdir -p _build/_temp/ar-lulua-w64"),
    (["_build", "_temp", "winkbd", "System32", "kbdarlulua.dll"], "ninja -C _build/_temp/winkbd"),
    (["_build", "_temp", "winkbd", "SysWOW64", "kbdarlulua.dll"], "ninja -C _build/_temp/winkbd"),
    (["_build", "_temp", "ar-lulua-w64", "System32", "kbdarlulua.dll"],
      "cp _build/_temp/winkbd/System32/kbdarlulua.dll _build/_temp/ar-lulua-w64/System32/kbdarlulua.dll"),
    (["_build", "_temp", "ar-lulua-w64", "SysWOW64", "kbdarlulua.dll"],
      "cp _build/_temp/winkbd/SysWOW64/kbdarlulua.dll _build/_temp/ar-lulua-w64/SysWOW64/kbdarlulua.dll"),
    (["_build", "_temp", "ar-lulua-w64", "README.txt"], "cp _build/_temp/winkbd/README.txt _build/_temp/ar-lulua-w64/README.txt"),
    (["_build", "_temp", "ar-lulua-w64", "lulua.reg"], "cp _build/_temp/winkbd/lulua.reg _build/_temp/ar-lulua-w64/lulua.reg"),
    (["_build", "_temp", "ar-lulua-w64", "install.bat"],
      "cp _build/_temp/winkbd/install.bat _build/_temp/ar-lulua-w64/install.bat"),
    (["_build", "report", "ar-lulua-w64.zip"], "./makezip.sh _build/_temp/ar-lulua-w64 _build/report/ar-lulua-w64.zip"),
    (["_build", "report", "ar-lulua.xmodmap"], "lulua-render -l ar-lulua xmodmap _build/report/ar-lulua.xmodmap")]

/-- The lines of the build file of the driver. -/
def driverLines : List (Path × String) :=
  let flags := "-Wall -Wextra -Werror -shared -nostartfiles -nodefaultlibs -s -Wl,--subsystem,native:5.01 " ++
    "-Wl,--image-base,0x5FFF0000 -Wl,-entry,0 -Wl,-T,linker.ld"
  [(["System32", "kbdarlulua.dll"],
      "x86_64-w64-mingw32-gcc -m64 " ++ flags ++ " -o System32/kbdarlulua.dll keyboard.c keyboard.def rc64.o"),
    (["SysWOW64", "kbdarlulua.dll"],
      "x86_64-w64-mingw32-gcc -m32 " ++ flags ++ " -o SysWOW64/kbdarlulua.dll keyboard.c keyboard.def rc32.o"),
    (["rc64.o"], "x86_64-w64-mingw32-windres --target=pe-x86-64 keyboard.rc rc64.o"),
    (["rc32.o"], "x86_64-w64-mingw32-windres --target=pe-i386 keyboard.rc rc32.o"),
    (["System32"], "mkdir -p System32"),
    (["SysWOW64"], "mkdir -p SysWOW64")]

end Lulua.Spec
