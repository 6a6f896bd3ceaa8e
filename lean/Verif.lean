import Verif.Basic
import Verif.Model.Utils
import Verif.Model.Parse
import Verif.Lemmas.Parse
import Verif.Spec.Decl
import Verif.Lemmas.Decl
import Verif.Lemmas.DeclRead
import Verif.Props.Parse
import Verif.Lemmas.DeclInv
import Verif.Spec.Params
import Verif.Lemmas.Params
import Verif.Props.Params
import Verif.Props.Accept
import Verif.Lemmas.Filter
import Verif.Props.Filter
import Verif.Model.Lex
import Verif.Lemmas.Lex
import Verif.Spec.Source
import Verif.Lemmas.LexStep
import Verif.Lemmas.LexLine
import Verif.Lemmas.LexSource
import Verif.Model.Tokenize
import Verif.Spec.Stmt
import Verif.Lemmas.Stream
import Verif.Props.Lex
import Verif.Lemmas.Text
import Verif.Spec.CText
import Verif.Lemmas.CText
import Verif.Spec.Paren
import Verif.Lemmas.Paren
import Verif.Props.Tokenize
import Verif.Model.Ast
import Verif.Spec.Ast
import Verif.Lemmas.AstLex
import Verif.Lemmas.Ast
import Verif.Props.Ast
import Verif.Model.Template
import Verif.Spec.CLiteral
import Verif.Spec.Template
import Verif.Lemmas.Template
import Verif.Lemmas.TemplateDump
import Verif.Props.Template
import Verif.Model.Prefix
import Verif.Spec.Rename
import Verif.Lemmas.Prefix
import Verif.Model.CommonPrefix
import Verif.Props.Prefix
import Verif.Model.Substitute
import Verif.Spec.Substitute
import Verif.Lemmas.Substitute
import Verif.Spec.TemplateLines
import Verif.Lemmas.SubstituteLine
import Verif.Lemmas.SubstituteSeq
import Verif.Props.Substitute
import Verif.Props.SubstituteLines
import Verif.Model.Options
import Verif.Spec.Options
import Verif.Lemmas.Options
import Verif.Lemmas.OptionsEffect
import Verif.Props.Options
import Verif.Model.Generate
import Verif.Lemmas.Generate
import Verif.Lemmas.GenerateRun
import Verif.Lemmas.GenerateAll
import Verif.Lemmas.GenerateSafe
import Verif.Props.Generate
import Verif.Spec.Generate
import Verif.Lemmas.GenerateText
import Verif.Props.GenerateText
import Verif.Props.GenerateHeader
import Verif.Model.Dump
import Verif.Props.Dump
import Verif.Model.Runtime
import Verif.Spec.Runtime
import Verif.Lemmas.Runtime
import Verif.Lemmas.RuntimePath
import Verif.Props.Runtime
import Verif.Props.RuntimeName
import Verif.Props.RuntimeError
import Verif.Model.Minimal
import Verif.Props.Minimal
import Verif.Model.Plugin
import Verif.Props.Plugin
import Verif.Model.Cxx
import Verif.Lemmas.Cxx
import Verif.Props.Cxx
import Verif.Props.CxxError
import Verif.Model.Threads
import Verif.Lemmas.Threads
import Verif.Props.Threads
import Verif.Props.Text
import Verif.Model.Procmap
import Verif.Spec.Maps
import Verif.Props.Procmap
import Verif.Model.Aix
import Verif.Props.Aix
import Verif.Model.Win
import Verif.Spec.Win
import Verif.Lemmas.Win
import Verif.Props.Win
import Verif.Props.WinError
import Verif.Props.Output
import Verif.Model.Main
import Verif.Spec.Spells
import Verif.Lemmas.Spells
import Verif.Lemmas.Print
import Verif.Props.Print
import Verif.Model.ScanError
import Verif.Lemmas.ScanError
import Verif.Props.ScanError
import Verif.Model.Help
import Verif.Model.Program
import Verif.Lemmas.ScanTok
import Verif.Lemmas.Program
import Verif.Lemmas.GenerateInv
import Verif.Lemmas.ProgramCmd
import Verif.Lemmas.CharSet
import Verif.Props.TextData
import Verif.Props.Program
import Verif.Props.Missing
import Verif.Props.Messages
import Verif.Props.AstProgram
import Verif.Model.CxxWin
import Verif.Lemmas.CxxWin
import Verif.Props.CxxWin
import Verif.Props.CxxWinFile
import Verif.Props.CxxWinError
import Verif.Spec.Help
import Verif.Props.Help
import Verif.Model.FileIO
import Verif.Props.FileIO
import Verif.Model.Builtin.License
import Verif.Model.Builtin.FilenameMacros
import Verif.Model.Builtin.CommonHeader
import Verif.Model.Builtin.CommonBody
import Verif.Model.Builtin.CHeader
import Verif.Model.Builtin.CBody
import Verif.Model.Builtin.CxxHeader
import Verif.Model.Builtin.CxxBody
import Verif.Model.Builtin.MinCHeader
import Verif.Model.Builtin.MinCxxHeader
import Verif.Model.Builtin.PluginHeader
import Verif.Model.Builtin.PluginBody
import Verif.Model.Builtin
import Verif.Spec.Builtin
import Verif.Lemmas.BuiltinText
import Verif.Lemmas.Builtin
import Verif.Lemmas.BuiltinCheck
import Verif.Lemmas.BuiltinOut
import Verif.Props.Builtin
import Verif.Spec.CForm
import Verif.Lemmas.CForm
import Verif.Lemmas.CFormCheckBody
import Verif.Lemmas.CFormCheckRest
import Verif.Lemmas.CFormCheck
import Verif.Props.CForm
import Verif.Spec.CLex
import Verif.Spec.CLang
import Verif.Lemmas.CLang
import Verif.Lemmas.CLexSym
import Verif.Lemmas.CRows
import Verif.Lemmas.CUsed
import Verif.Lemmas.CSeg
import Verif.Model.CProg
import Verif.Lemmas.CProgText
import Verif.Lemmas.CProgOtherText
import Verif.Lemmas.CInsts
import Verif.Props.CCode
import Verif.Spec.CSem
import Verif.Model.CSystem
import Verif.Lemmas.CExec
import Verif.Lemmas.CCall
import Verif.Lemmas.CCallSym
import Verif.Lemmas.CCallName
import Verif.Lemmas.CCallPath
import Verif.Lemmas.CCallAddr
import Verif.Lemmas.CCallWrap
import Verif.Lemmas.CCallLink
import Verif.Lemmas.CNames
import Verif.Props.CRun
import Verif.Model.CSystemMin
import Verif.Lemmas.CMin
import Verif.Props.CMin
import Verif.Model.CProgCxx
import Verif.Lemmas.CProgCxxText
import Verif.Model.CSystemCxxeh
import Verif.Lemmas.CCxxeh
import Verif.Props.CCxxeh
import Verif.Model.CSystemPlug
import Verif.Lemmas.CPlug
import Verif.Props.CPlug
import Verif.Spec.CMacro
import Verif.Lemmas.CMacroLex
import Verif.Lemmas.CMacroRun
import Verif.Lemmas.CMacroName
import Verif.Lemmas.CMacroExpand
import Verif.Lemmas.CMacroText
import Verif.Lemmas.CMacroLib
import Verif.Lemmas.CMacroCommon
import Verif.Lemmas.CMacroHead
import Verif.Lemmas.CMacroAlias
import Verif.Lemmas.CMacroBecome
import Verif.Props.CMacro
import Verif.Props.CMacroAlias
import Verif.Model.CSystemWin
import Verif.Lemmas.CWin
import Verif.Lemmas.CWinHeap
import Verif.Lemmas.CWinLoad
import Verif.Lemmas.CWinSym
import Verif.Lemmas.CWinName
import Verif.Lemmas.CWinWrap
import Verif.Lemmas.CWinLink
import Verif.Props.CWinRun
import Verif.Props.LexSplit
import Verif.Lemmas.CMacroCalm
import Verif.Lemmas.CMacroActs
import Verif.Lemmas.CMacroWalk
import Verif.Props.CMacroFile
import Verif.Lemmas.CMacroSeg
import Verif.Props.CMacroConfig
import Verif.Lemmas.CMacroGuard
import Verif.Props.CMacroGuard
import Verif.Lemmas.CMacroRefuse
import Verif.Props.CMacroRefuse
import Verif.Props.CMacroHeader
import Verif.Props.CMacroFront
import Verif.Props.CMacroSingle
import Verif.Lemmas.CMacroCxx
import Verif.Props.CMacroCxx
import Verif.Props.CMacroCxxFile
import Verif.Props.CMacroCxxWhole
import Verif.Lemmas.CMacroMin
import Verif.Props.CMacroMin
import Verif.Props.CMacroClean
import Verif.Props.CMacroUnit
import Verif.Props.CMacroWrapper
import Verif.Props.CMacroWrapperFile
