import Verif.Model.Basic
import Verif.Model.Utf8
import Verif.Model.Lexer
import Verif.Proofs.LexTotal
import Verif.Props.C01
import Verif.Proofs.Utf8
import Verif.Spec.Lex
import Verif.Spec.GoBlock
import Verif.Proofs.LexAt
import Verif.Proofs.LexTok
import Verif.Proofs.LexStr
import Verif.Proofs.LexBlock
import Verif.Proofs.LexFmt
import Verif.Proofs.LexSkip
import Verif.Proofs.LexScan
import Verif.Proofs.LexRun
import Verif.Proofs.BlockSpec
import Verif.Proofs.Lines
import Verif.Props.C03
import Verif.Proofs.LexBytes
import Verif.Props.C04
import Verif.Props.C06
import Verif.Props.C08
import Verif.Props.C10
import Verif.Proofs.Respace
import Verif.Props.C11
import Verif.Model.Ast
import Verif.Model.Parser
import Verif.Spec.Grammar
import Verif.Proofs.ParseBasic
import Verif.Proofs.ParseLoop
import Verif.Proofs.ParseSound
import Verif.Proofs.ParseEats
import Verif.Proofs.ParseLax
import Verif.Proofs.ParseComplete
import Verif.Proofs.ParseSafe
import Verif.Proofs.ParseTop
import Verif.Props.C12
import Verif.Props.C14
import Verif.Props.C17
import Verif.Proofs.ParseSim
import Verif.Proofs.LexEof
import Verif.Props.C11Doc
import Verif.Spec.Strict
import Verif.Spec.Ints
import Verif.Proofs.ParseAt
import Verif.Proofs.ParseStrict
import Verif.Proofs.ParseInts
import Verif.Props.C15
import Verif.Model.Heap
import Verif.Spec.Lists
import Verif.Proofs.HeapLists
import Verif.Props.C25
import Verif.Model.Walker
import Verif.Spec.Tree
import Verif.Proofs.Walk
import Verif.Props.C28
import Verif.Model.Errors
import Verif.Model.Context
import Verif.Model.Rules
import Verif.Proofs.Rules
import Verif.Proofs.RulesWalk
import Verif.Proofs.Dfs
import Verif.Proofs.Decorate
import Verif.Proofs.Kinds
import Verif.Proofs.OpNames
import Verif.Spec.Fragments
import Verif.Proofs.Uses
import Verif.Props.C29
import Verif.Spec.Definitions
import Verif.Proofs.Prepare
import Verif.Proofs.PrepareErrors
import Verif.Spec.Rules
import Verif.Proofs.RuleSpecs
import Verif.Spec.Words
import Verif.Spec.Messages
import Verif.Spec.RuleErrors
import Verif.Proofs.Repeated
import Verif.Props.C30
import Verif.Props.C33
import Verif.Model.Api
import Verif.Props.C39
import Verif.Props.C40
import Verif.Props.C45
import Verif.Model.Schema
import Verif.Model.Utils
import Verif.Model.SchemaValidate
import Verif.Spec.Schema
import Verif.Proofs.Subtype
import Verif.Proofs.SchemaValidate
import Verif.Proofs.SchemaPanic
import Verif.Proofs.SchemaFuel
import Verif.Props.C50
import Verif.Spec.Build
import Verif.Proofs.SchemaBuild
import Verif.Proofs.Named
import Verif.Proofs.SdlDoc
import Verif.Proofs.SchemaSame
import Verif.Props.C46
import Verif.Props.C63
import Verif.Model.Json
import Verif.Model.Suggest
import Verif.Spec.Json
import Verif.Props.C57
import Verif.Props.C60
import Verif.Model.Dumper
import Verif.Spec.Dump
import Verif.Proofs.DumpStr
import Verif.Proofs.DumpLex
import Verif.Proofs.DumpVal
import Verif.Proofs.DumpDoc
import Verif.Proofs.DumpType
import Verif.Proofs.DumpAll
import Verif.Props.C23
import Verif.Proofs.DumpExact
import Verif.Props.C24
import Verif.Spec.ValidSchema
import Verif.Props.C65
import Verif.Model.AstLookup
import Verif.Props.C64
import Verif.Props.C66
import Verif.Model.Response
import Verif.Props.C67
import Verif.Proofs.JsonRead
import Verif.Props.C60Exact
import Verif.Proofs.Forward
import Verif.Props.C68
import Verif.Props.C69
import Verif.Spec.ValidQuery
import Verif.Props.C70
import Verif.Proofs.Concat
import Verif.Props.C71
import Verif.Props.C72
import Verif.Props.C73
import Verif.Model.HeapBuild
import Verif.Spec.Store
import Verif.Proofs.HeapBuild
import Verif.Proofs.HeapState
import Verif.Proofs.HeapCalls
import Verif.Props.C74
import Verif.Spec.LexError
import Verif.Proofs.LexError
import Verif.Proofs.LexErrorTotal
import Verif.Props.C75
import Verif.Spec.SyntaxError
import Verif.Model.ParseError
import Verif.Proofs.ParseLocal
import Verif.Proofs.ParseLocalHead
import Verif.Proofs.ParseLocalLoop
import Verif.Proofs.ParseLocalParse
import Verif.Proofs.ParseLocalDefs
import Verif.Proofs.ParseLocalTop
import Verif.Proofs.ParseLocalAll
import Verif.Proofs.ParseWants
import Verif.Props.C76
import Verif.Spec.BuiltIn
import Verif.Model.Conc
import Verif.Spec.Concurrent
import Verif.Proofs.ConcLogic
import Verif.Proofs.ConcLists
import Verif.Proofs.ConcBuild
import Verif.Proofs.ConcCalls
import Verif.Proofs.ConcInv
import Verif.Proofs.ConcRun
import Verif.Props.C77
import Verif.Spec.Asked
import Verif.Proofs.Asked
import Verif.Props.C78
import Verif.Proofs.ParseVia
import Verif.Proofs.ParseViaLoop
import Verif.Proofs.ParseViaParts
import Verif.Proofs.ParseViaType
import Verif.Proofs.ParseViaSel
import Verif.Proofs.ParseViaDefs
import Verif.Proofs.ParseViaSDL
import Verif.Proofs.ParseViaBody
import Verif.Proofs.LexCut
import Verif.Spec.Viable
import Verif.Props.C79
import Verif.Spec.Repair
import Verif.Spec.StrMap
import Verif.Proofs.LexTwin
import Verif.Proofs.LexTwinStr
import Verif.Proofs.LexTwinTok
import Verif.Proofs.Repair
import Verif.Proofs.ParseStr
import Verif.Props.C80
import Verif.Props.C81
import Verif.Props.C82
import Verif.Model.Alias
import Verif.Model.AliasAst
import Verif.Model.AliasParser
import Verif.Proofs.Alias
import Verif.Proofs.AliasParse
import Verif.Proofs.AliasTouch
import Verif.Props.C83
import Verif.Spec.Shared
import Verif.Proofs.AliasWhere
import Verif.Props.C83Where
import Verif.Spec.Depth
import Verif.Model.Stack
import Verif.Proofs.Depth
import Verif.Proofs.DepthParse
import Verif.Proofs.DepthLex
import Verif.Proofs.DepthNeed
import Verif.Props.C84
import Verif.Spec.GoPos
import Verif.Proofs.LexPos
import Verif.Props.C08Exact
import Verif.Proofs.PosOrder
import Verif.Props.C85
import Verif.Model.Reads
import Verif.Proofs.Reads
import Verif.Model.Steps
import Verif.Proofs.Steps
import Verif.Proofs.StepsParse
import Verif.Props.C86
import Verif.Spec.Rename
import Verif.Proofs.Rename
import Verif.Props.C87
import Verif.Props.C88
import Verif.Props.C89
import Verif.Props.C90
import Verif.Proofs.Bounds
import Verif.Proofs.BoundsTok
import Verif.Model.Machine
import Verif.Props.C91
import Verif.Props.C92
import Verif.Props.C93
import Verif.Props.C94
import Verif.Props.C95
import Verif.Props.C96
import Verif.Props.C97
import Verif.Props.C98
import Verif.Props.C99
import Verif.Props.C100
import Verif.Props.C101
import Verif.Conformance.RuleTest
import Verif.Conformance.RulesQuery
import Verif.Conformance.RulesSDL
import Verif.Conformance.RulesSDL2
import Verif.Conformance.ScanGolden
import Verif.Conformance.Misc
