import Verif.Tone.Model
import Verif.Tone.Spec
import Verif.Tone.Lemmas
import Verif.Tone.Props
import Verif.AST.Basic
import Verif.AST.Model
import Verif.AST.Spec
import Verif.AST.VisitProps
import Verif.AST.EqualProps
import Verif.AST.ModProps
import Verif.AST.BracesProps
import Verif.AST.GoLib
import Verif.AST.Pretty
import Verif.AST.GoPrint
import Verif.AST.GoPrintProps
import Verif.Peg.Text
import Verif.Peg.Loc
import Verif.Peg.Fail
import Verif.Peg.Expr
import Verif.Peg.ExprProps
import Verif.Peg.Table
import Verif.Peg.Memo
import Verif.Logic.Basic
import Verif.Logic.Visit
import Verif.Logic.Lists
import Verif.Logic.Simplify
import Verif.Logic.SimplifyProps
import Verif.Unicode
import Verif.Logic.Print
import Verif.Logic.GoPrint
import Verif.Logic.PrintProps
import Verif.Logic.ReadProps
import Verif.Logic.Words
import Verif.Logic.WordsProps
import Verif.Logic.Interp
import Verif.Logic.InterpTerm
import Verif.Logic.SimplifyTerm
import Verif.Logic.InterpSorted
import Verif.Logic.SimplifySorted
import Verif.Logic.InterpProps
import Verif.Logic.InterpExamples
import Verif.Logic.DistProps
import Verif.Logic.PanicProps
import Verif.Logic.Meaning
import Verif.Logic.MeaningRun
import Verif.Logic.MeaningProps
import Verif.Logic.SemMeaning
import Verif.Logic.SemSimp
import Verif.Logic.SemProps
import Verif.Logic.Sem
import Verif.Logic.Den
import Verif.Logic.DenBase
import Verif.Logic.DenState
import Verif.Logic.DenRes
import Verif.Logic.DenArg
import Verif.Logic.DenSpec
import Verif.Logic.DenPred
import Verif.Logic.DenStmt
import Verif.Logic.DenRoi
import Verif.Logic.DenTerms
import Verif.Logic.DenPrenex
import Verif.Logic.DenContent
import Verif.Logic.DenPrep
import Verif.Logic.DenRun
import Verif.Logic.DenTop
import Verif.Logic.DenProps
import Verif.App.Dict
import Verif.App.DictGen
import Verif.App.DictExact
import Verif.App.DictTone
import Verif.App.Bot
import Verif.Parse.Action
import Verif.Parse.Sort
import Verif.Parse.Spec
import Verif.Parse.Types
import Verif.Parse.Grammar
import Verif.Parse.Check
import Verif.Parse.TypesProps
import Verif.Parse.ActProps
import Verif.Parse.Sound
import Verif.Peg.Utf8
import Verif.Parse.Parser
import Verif.Parse.ParserProps
import Verif.Parse.AliasProps
import Verif.Parse.AliasExact
import Verif.Parse.TreeProps
import Verif.Parse.TextProps
import Verif.Parse.Examples
import Verif.Parse.ClassSpec
import Verif.Parse.WordLang
import Verif.Parse.WordVal
import Verif.Parse.ClassTypes
import Verif.Parse.ClassProps
import Verif.Conformance
import Verif.App.Server
import Verif.App.BotParse
import Verif.Logic.ParsedWords
import Verif.Logic.ParsedPanic
import Verif.App.Parsed
import Verif.Peg.FailPass
import Verif.Peg.FailProps
import Verif.Peg.FailTree
import Verif.Peg.FailEnd
import Verif.Peg.FailMisc
import Verif.Parse.Errors
import Verif.Parse.ErrProps
import Verif.Parse.ErrEnd
import Verif.Peg.Sim
import Verif.Parse.SpellSpec
import Verif.Parse.SpellProps
import Verif.Parse.SpellTop
import Verif.Parse.ToneSpec
import Verif.Parse.ToneVal
import Verif.Parse.ToneTrees
import Verif.Parse.ToneTypes
import Verif.Parse.ToneProps
import Verif.Logic.SpellWords
import Verif.Logic.SpellInterp
import Verif.Logic.SpellText
import Verif.Peg.Runs
import Verif.Parse.NoteSpec
import Verif.Parse.Window
import Verif.Peg.Leaves
import Verif.Parse.NoteWins
import Verif.Parse.NoteRows
import Verif.Parse.NoteTab1
import Verif.Parse.NoteTab2
import Verif.Parse.NoteTab3
import Verif.Parse.NoteTab4
import Verif.Parse.NoteLeaf
import Verif.Parse.NoteSim
import Verif.Parse.NoteTop
import Verif.Logic.NoteText
import Verif.Logic.Breve
import Verif.Parse.Names
import Verif.Peg.Pretty
import Verif.Peg.EvInv
import Verif.Parse.TreePrint
import Verif.Parse.Printed
import Verif.Parse.Prov
import Verif.Parse.WordAt
import Verif.Parse.WordNext
import Verif.Peg.Dedup
import Verif.Peg.DedupExact
import Verif.Parse.DedupProps
import Verif.App.Main
import Verif.Parse.StartEnd
import Verif.Parse.EndExact
import Verif.Parse.Late
import Verif.Parse.Wants
import Verif.Parse.Message
import Verif.Parse.ArgPlaces
import Verif.Logic.PanicExact
import Verif.Logic.PanicParsed
import Verif.App.Exact
