import Verif.Urn
import Verif.Conformance
import Verif.Main
import Verif.Gram
import Verif.GramComp
import Verif.Lang2141
import Verif.LangScim
import Verif.Lang8141
import Verif.Obs
import Verif.Bridge
import Verif.PropsAux
import Verif.Cases
import Verif.PropsParse
import Verif.EqualAux
import Verif.PropsEqual
import Verif.HxAux
import Verif.PropsHist
import Verif.Json
import Verif.SpecJson
import Verif.JsonAux
import Verif.PropsJson
import Verif.PropsJsonText
import Verif.ErrAux
import Verif.ErrBest
import Verif.PropsError
import Verif.SpecErr
import Verif.ErrKindAux
import Verif.ErrKindComp
import Verif.ErrKind8141
import Verif.ErrKindScim
import Verif.PropsErrKind
import Verif.Conc
import Verif.ConcSeq
import Verif.WriteTab
import Verif.WriteInv
import Verif.ConcAux
import Verif.WriteAux
import Verif.PropsConc
import Verif.PropsBuilt
import Verif.SpecRfc
import Verif.RfcAux
import Verif.PropsRfc
import Verif.Regex
import Verif.Tools
import Verif.SpecTools
import Verif.RegexAux
import Verif.CommentAux
import Verif.SnakeAux
import Verif.ToolsAux
import Verif.PropsTools
import Verif.Ragel
import Verif.Grammar
import Verif.RagelCert
import Verif.RagelAux
import Verif.RagelCheck
import Verif.RagelCheck2
import Verif.RagelCheck3
import Verif.RagelCheck4
import Verif.RagelSim
import Verif.PropsRagel
import Verif.Word
import Verif.WordAux
import Verif.PropsWord
import Verif.Shared
import Verif.PropsShared
import Verif.Heap
import Verif.HeapAux
import Verif.PropsHeap
import Verif.PropsValues
import Verif.PropsMethods
import Verif.Locked
import Verif.PropsLocked
import Verif.GoSource
import Verif.GoSyntax
import Verif.GoSem
import Verif.GoText
import Verif.GoEval
import Verif.GoTables
import Verif.GoLabels
import Verif.GoRep
import Verif.GoActs
import Verif.GoActs2
import Verif.GoLoop
import Verif.GoParse
import Verif.GoApi
import Verif.GoApi2
import Verif.GoApi3
import Verif.GoApi4
import Verif.GoMono
import Verif.GoSpec
import Verif.GoSpecAux
import Verif.PropsText
import Verif.GoClient
import Verif.GoClientFns
import Verif.GoClientSim
import Verif.GoClientStep
import Verif.GoClientRun
import Verif.PropsClient
import Verif.RlSource
import Verif.RlSyntax
import Verif.RlText
import Verif.RlCamel
import Verif.RlGo
import Verif.RlSpec
import Verif.PropsGrammar
import Verif.GoCheck
import Verif.GoCheckFns
import Verif.GoCheckRules
import Verif.GoCheckCalls
import Verif.GoCheckRun
import Verif.GoCheckRun2
import Verif.GoCheckRun3
import Verif.GoCheckRun4
import Verif.PropsCheck
import Verif.ToolSource
import Verif.ToolSyntax
import Verif.RegexText
import Verif.RegexTextAux
import Verif.ToolSem
import Verif.ToolText
import Verif.ToolRun
import Verif.ToolRun2
import Verif.ToolRun3
import Verif.ToolRuns
import Verif.ToolMachine
import Verif.PropsToolText
import Verif.RegexRune
import Verif.RegexRuneAux
import Verif.ToolChars
import Verif.PropsToolChars
import Verif.Cost
import Verif.CostTab
import Verif.CostAux
import Verif.PropsCost
import Verif.GoTree
import Verif.GoTreeRun
import Verif.GoRace
import Verif.GoRaceSpec
import Verif.GoRaceAux
import Verif.GoRaceConv
import Verif.GoRaceMask
import Verif.GoRacePure
import Verif.GoRaceRun
import Verif.GoRaceWrite
import Verif.GoRaceEnd
import Verif.PropsRace
import Verif.GoOrder
import Verif.PropsOrder
import Verif.GoFieldSpec
import Verif.GoField
import Verif.GoAssign
import Verif.GoDoes
import Verif.PropsField
import Verif.GoEndSpec
import Verif.GoEndAux
import Verif.PropsEnd
import Verif.GoWrites
import Verif.GoWritesAux
import Verif.GoStuck
import Verif.GoSliceSpec
import Verif.GoSlice
import Verif.PropsSlice
import Verif.GoShareSpec
import Verif.GoShare
import Verif.PropsShare
import Verif.PropsMore
import Verif.SpecEquiv
import Verif.EquivAux
import Verif.PropsConform
import Verif.ErrExact
import Verif.PropsColumn
import Verif.PropsEndColumn
import Verif.GoLock
import Verif.GoLockAux
import Verif.GoLockMach
import Verif.GoLockClient
import Verif.PropsGoLock
import Verif.PropsCostText
