import Verif.Py.Core
import Verif.Py.DictLemmas
import Verif.Py.FSet
import Verif.Model.Keyboard
import Verif.Model.Layout
import Verif.Model.Writer
import Verif.Spec.Typing
import Verif.Proofs.Layout
import Verif.Proofs.Writer
import Verif.Spec.Choose
import Verif.Proofs.Choose
import Verif.Props.Typing
import Verif.Spec.Keyboard
import Verif.Proofs.Keyboard
import Verif.Props.Keyboard
import Verif.Model.Stats
import Verif.Spec.Stats
import Verif.Proofs.Lists
import Verif.Proofs.Stats
import Verif.Spec.Merge
import Verif.Proofs.Merge
import Verif.Proofs.Stats2
import Verif.Props.Stats
import Verif.Model.Text
import Verif.Spec.Text
import Verif.Proofs.Text
import Verif.Props.Text
import Verif.Model.Formats
import Verif.Spec.Formats
import Verif.Proofs.Formats
import Verif.Props.Formats
import Verif.Model.Pool
import Verif.Spec.Pool
import Verif.Proofs.Pool
import Verif.Props.Pool
import Verif.Model.Carpalx
import Verif.Spec.Carpalx
import Verif.Proofs.Carpalx
import Verif.Props.Carpalx
import Verif.Data.Keyboards
import Verif.Data.Layouts
import Verif.Data.Tables
import Verif.Spec.Shipped
import Verif.Proofs.Shipped
import Verif.Props.Shipped
import Verif.Model.Optimize
import Verif.Model.OptArgs
import Verif.Spec.Optimize
import Verif.Spec.OptArgs
import Verif.Proofs.Anneal
import Verif.Proofs.Optimize
import Verif.Proofs.OptimizeEnergy
import Verif.Proofs.OptimizeEmit
import Verif.Proofs.OptimizeRun
import Verif.Proofs.OptArgs
import Verif.Props.Optimize
import Verif.Model.Util
import Verif.Spec.Util
import Verif.Proofs.Util
import Verif.Props.Util
import Verif.Model.Report
import Verif.Spec.Report
import Verif.Proofs.Report
import Verif.Props.Report
import Verif.Model.Plot
import Verif.Spec.Plot
import Verif.Proofs.Plot
import Verif.Props.Plot
import Verif.Model.Render
import Verif.Spec.Render
import Verif.Proofs.Render
import Verif.Props.Render
import Verif.Model.Xmodmap
import Verif.Spec.Xmodmap
import Verif.Proofs.Xmodmap
import Verif.Props.Xmodmap
import Verif.Model.WinKbd
import Verif.Data.WinKbd
import Verif.Spec.WinKbd
import Verif.Proofs.WinKbd
import Verif.Props.WinKbd
import Verif.Model.Klc
import Verif.Spec.Klc
import Verif.Proofs.Klc
import Verif.Props.Klc
import Verif.Data.Composed
import Verif.Model.Export
import Verif.Spec.Export
import Verif.Proofs.Export
import Verif.Props.Export
import Verif.Model.Analyze
import Verif.Model.LatinIme
import Verif.Spec.Analyze
import Verif.Proofs.Analyze
import Verif.Proofs.LatinIme
import Verif.Props.Analyze
import Verif.Props.Layout
import Verif.Props.StatsContinue
import Verif.Proofs.OptimizeTotal
import Verif.Props.OptimizeShipped
import Verif.Spec.Effort
import Verif.Props.Effort
import Verif.Props.OptimizeOptions
import Verif.Model.Mediawiki
import Verif.Spec.Json
import Verif.Props.Mediawiki
import Verif.Model.Status
import Verif.Spec.Status
import Verif.Props.Status
import Verif.Props.Import
import Verif.Spec.KlcKeys
import Verif.Props.KlcKeys
import Verif.Model.Pretty
import Verif.Spec.Pretty
import Verif.Props.Pretty
import Verif.Props.PrettyShipped
import Verif.Props.LayoutEq
import Verif.Conformance.Base
import Verif.Conformance.Writer
import Verif.Conformance.Keyboard
import Verif.Conformance.Stats
import Verif.Conformance.Other
import Verif.Model.Glob
import Verif.Spec.Glob
import Verif.Model.Build
import Verif.Props.OptimizePins
import Verif.Model.Xml
import Verif.Spec.Xml
import Verif.Proofs.Xml
import Verif.Props.Xml
import Verif.Model.WinKbdText
import Verif.Spec.CText
import Verif.Proofs.WinKbdText
import Verif.Proofs.WinKbdRead
import Verif.Props.WinKbdText
import Verif.Model.Shapes
import Verif.Spec.Shapes
import Verif.Props.Shapes
import Verif.Model.WinKbdTables
import Verif.Spec.CProgram
import Verif.Proofs.WinKbdTables
import Verif.Proofs.WinKbdProgram
import Verif.Proofs.WinKbdValues
import Verif.Proofs.WinKbdMeaning
import Verif.Props.WinKbdTables
import Verif.Spec.CharMap
import Verif.Props.CharMap
import Verif.Spec.Prose
import Verif.Props.Prose
import Verif.Model.Pipeline
import Verif.Spec.Pipeline
import Verif.Proofs.Pipeline
import Verif.Props.Pipeline
import Verif.Model.Filters
import Verif.Spec.Filters
import Verif.Proofs.Filters
import Verif.Props.Filters
import Verif.Model.Page
import Verif.Data.Corpora
import Verif.Spec.Page
import Verif.Proofs.Page
import Verif.Props.Page
import Verif.Model.Ninja
import Verif.Spec.Ninja
import Verif.Proofs.Ninja
import Verif.Props.Ninja
import Verif.Model.EffortPlot
import Verif.Spec.EffortPlot
import Verif.Proofs.EffortPlot
import Verif.Props.EffortPlot
import Verif.Model.Whole
import Verif.Spec.Figures
import Verif.Spec.FiguresDemo
import Verif.Proofs.Figures
import Verif.Proofs.FiguresDemo1
import Verif.Proofs.FiguresDemo2
import Verif.Proofs.FiguresDemo3
import Verif.Props.Figures
import Verif.Props.FiguresShipped
import Verif.Spec.NinjaLines
import Verif.Props.NinjaLines
import Verif.Model.WinKbdFile
import Verif.Spec.CFile
import Verif.Proofs.CFile
import Verif.Proofs.CFileFits
import Verif.Proofs.CFileChars
import Verif.Proofs.CFileEntry
import Verif.Proofs.CFileWhole
import Verif.Props.WinKbdFile
import Verif.Spec.Selection
import Verif.Props.Selection
import Verif.Model.Printed
import Verif.Spec.Printed
import Verif.Proofs.Printed
import Verif.Props.Printed
import Verif.Model.Commands
import Verif.Proofs.Commands
import Verif.Props.Commands
import Verif.Data.Styles
import Verif.Model.Svg
import Verif.Spec.Css
import Verif.Proofs.Css
import Verif.Props.Css
import Verif.Props.Tei
import Verif.Model.Argparse
import Verif.Spec.Argparse
import Verif.Spec.ArgBuild
import Verif.Proofs.Argparse
import Verif.Proofs.ArgPrograms
import Verif.Props.Argparse
import Verif.Props.ArgBuild
import Verif.Spec.ArgSpell
import Verif.Proofs.ArgLocal
import Verif.Proofs.ArgSpell
import Verif.Proofs.ArgWithin
import Verif.Props.ArgSpell
import Verif.Model.Output
import Verif.Spec.Output
import Verif.Proofs.Output
import Verif.Props.Output
import Verif.Model.Benchmark
import Verif.Proofs.Benchmark
import Verif.Props.Benchmark
import Verif.Model.RenderMain
import Verif.Spec.RenderMain
import Verif.Props.RenderMain
import Verif.Model.WriteMain
import Verif.Spec.WriteMain
import Verif.Props.WriteMain
import Verif.Model.OptimizeMain
import Verif.Spec.OptimizeMain
import Verif.Props.OptimizeMain
import Verif.Model.AnalyzeMain
import Verif.Spec.AnalyzeMain
import Verif.Props.AnalyzeMain
import Verif.Model.ImportMain
import Verif.Spec.Utf16
import Verif.Props.ImportMain
import Verif.Props.OutputKlavaro
import Verif.Props.RenderDisk
import Verif.Model.ReportMain
import Verif.Spec.ReportMain
import Verif.Props.ReportMain
import Verif.Model.ExtractMain
import Verif.Spec.Dump
import Verif.Props.ExtractMain
import Verif.Props.OutputReported
import Verif.Props.AnalyzeFirst
import Verif.Props.UtilLocal
import Verif.Model.CorpusMain
import Verif.Spec.CorpusMain
import Verif.Props.CorpusMain
import Verif.Model.Hands
import Verif.Spec.Hands
import Verif.Props.Hands
import Verif.Props.OptimizeAmbiguous
import Verif.Model.Combination
import Verif.Spec.Combination
import Verif.Props.Combination
import Verif.Model.Startup
import Verif.Props.Startup
import Verif.Model.HandsText
import Verif.Props.HandsText
import Verif.Model.Exit
import Verif.Props.Exit
import Verif.Model.ReadError
import Verif.Props.ReadError
import Verif.Model.Pandoc
import Verif.Spec.Pandoc
import Verif.Props.Pandoc
import Verif.Model.IntLimit
import Verif.Props.IntLimit
import Verif.Props.PandocFilter
