import Verif.Axioms
import Verif.Conformance.Classifier
import Verif.Conformance.Crf
import Verif.Conformance.CrfModels
import Verif.Conformance.Deterministic
import Verif.Conformance.Engine
import Verif.Conformance.EntityParser
import Verif.Conformance.Features
import Verif.Conformance.JsonEq
import Verif.Conformance.Lookup
import Verif.Conformance.ModelFiles
import Verif.Conformance.Patterns
import Verif.Conformance.Slots
import Verif.Conformance.Support
import Verif.Model.Archive
import Verif.Model.Base64
import Verif.Model.Basic
import Verif.Model.Binary32
import Verif.Model.Bindings
import Verif.Model.Bytes
import Verif.Model.Classifier
import Verif.Model.Cli
import Verif.Model.Concurrent
import Verif.Model.Crf
import Verif.Model.Decode
import Verif.Model.Deterministic
import Verif.Model.Engine
import Verif.Model.EngineShared
import Verif.Model.EntityParser
import Verif.Model.FeatureFactory
import Verif.Model.Features
import Verif.Model.Ffi
import Verif.Model.FfiConcurrent
import Verif.Model.Files
import Verif.Model.FromZip
import Verif.Model.InjectMessages
import Verif.Model.Injection
import Verif.Model.Json
import Verif.Model.JsonText
import Verif.Model.Loading
import Verif.Model.Lookup
import Verif.Model.Machine
import Verif.Model.Messages
import Verif.Model.Nan
import Verif.Model.Parsers
import Verif.Model.Probabilistic
import Verif.Model.Prog
import Verif.Model.QueryMessages
import Verif.Model.Readers
import Verif.Model.Resources
import Verif.Model.ResultJson
import Verif.Model.RuleParser
import Verif.Model.SlotFiller
import Verif.Model.SlotUtils
import Verif.Model.SwiftValues
import Verif.Model.TaggerShared
import Verif.Model.TextFns
import Verif.Model.TrainedPattern
import Verif.Model.Types
import Verif.Model.Utils
import Verif.Proofs.Answering
import Verif.Proofs.Archive
import Verif.Proofs.ArchiveExact
import Verif.Proofs.ArchiveTree
import Verif.Proofs.Base64
import Verif.Proofs.Binary32
import Verif.Proofs.Bindings
import Verif.Proofs.Blanks
import Verif.Proofs.BlanksClassifier
import Verif.Proofs.Builds
import Verif.Proofs.Bytes
import Verif.Proofs.Cache
import Verif.Proofs.ClassRows
import Verif.Proofs.Cli
import Verif.Proofs.Clock
import Verif.Proofs.Concurrent
import Verif.Proofs.Decode
import Verif.Proofs.Dedup
import Verif.Proofs.DetRun
import Verif.Proofs.Engine
import Verif.Proofs.EngineShared
import Verif.Proofs.Extension
import Verif.Proofs.Extracting
import Verif.Proofs.FeatureNames
import Verif.Proofs.Features
import Verif.Proofs.Ffi
import Verif.Proofs.FfiConcurrent
import Verif.Proofs.Filters
import Verif.Proofs.Float32
import Verif.Proofs.InjectMessages
import Verif.Proofs.InjectedEngine
import Verif.Proofs.Injection
import Verif.Proofs.Injections
import Verif.Proofs.Json
import Verif.Proofs.JsonOrder
import Verif.Proofs.JsonStrings
import Verif.Proofs.JsonText
import Verif.Proofs.JsonValues
import Verif.Proofs.JsonWrite
import Verif.Proofs.LetterCase
import Verif.Proofs.LetterCaseEngine
import Verif.Proofs.LetterCaseRules
import Verif.Proofs.Loading
import Verif.Proofs.LookupRun
import Verif.Proofs.LookupTable
import Verif.Proofs.Machine
import Verif.Proofs.Machine32
import Verif.Proofs.Map
import Verif.Proofs.Merge
import Verif.Proofs.Messages
import Verif.Proofs.MoreAlternatives
import Verif.Proofs.Nan
import Verif.Proofs.Narrow
import Verif.Proofs.NarrowLookup
import Verif.Proofs.OtherResources
import Verif.Proofs.OtherStopWords
import Verif.Proofs.PatternStopWords
import Verif.Proofs.Prog
import Verif.Proofs.Python
import Verif.Proofs.RangeShift
import Verif.Proofs.Readers
import Verif.Proofs.Relocation
import Verif.Proofs.Renaming
import Verif.Proofs.Replace
import Verif.Proofs.Reproducible
import Verif.Proofs.Requests
import Verif.Proofs.Resources
import Verif.Proofs.ResultJson
import Verif.Proofs.Rule
import Verif.Proofs.Safety
import Verif.Proofs.Sessions
import Verif.Proofs.Shares
import Verif.Proofs.SinglePrecision
import Verif.Proofs.SlotRenaming
import Verif.Proofs.Sort
import Verif.Proofs.StopWords
import Verif.Proofs.Swift
import Verif.Proofs.SwiftValues
import Verif.Proofs.TaggerShared
import Verif.Proofs.Tags
import Verif.Proofs.Tfidf
import Verif.Proofs.ThreadRequests
import Verif.Proofs.Trained
import Verif.Proofs.ValidModel
import Verif.Proofs.Weights
import Verif.Props.C01_Engine
import Verif.Props.C02_Filter
import Verif.Props.C03_Cascade
import Verif.Props.C04_Alternatives
import Verif.Props.C05_Alternatives
import Verif.Props.C06_AltRanking
import Verif.Props.C06_Single
import Verif.Props.C08_Ranking
import Verif.Props.C09_GetSlots
import Verif.Props.C100_Clock
import Verif.Props.C101_Extracting
import Verif.Props.C102_Requests
import Verif.Props.C103_Candidates
import Verif.Props.C104_Keys
import Verif.Props.C105_Renaming
import Verif.Props.C106_ThreadRequests
import Verif.Props.C107_Sessions
import Verif.Props.C108_LetterCase
import Verif.Props.C109_SlotRenaming
import Verif.Props.C10_Resolution
import Verif.Props.C110_Declared
import Verif.Props.C111_Extension
import Verif.Props.C112_StopWords
import Verif.Props.C113_Rows
import Verif.Props.C114_FeatureNames
import Verif.Props.C115_ParserList
import Verif.Props.C116_PatternStopWords
import Verif.Props.C117_EngineStopWords
import Verif.Props.C118_Blanks
import Verif.Props.C119_SlotFillerBlanks
import Verif.Props.C120_ReadBlanks
import Verif.Props.C121_EngineBlanks
import Verif.Props.C122_RankedMoved
import Verif.Props.C123_OtherStopWords
import Verif.Props.C124_OtherResources
import Verif.Props.C12_Unknown
import Verif.Props.C14_RuleSlots
import Verif.Props.C16_Dedup
import Verif.Props.C17_Replace
import Verif.Props.C18_Ranges
import Verif.Props.C19_Blanking
import Verif.Props.C20_Shifts
import Verif.Props.C21_Cache
import Verif.Props.C22_Concurrent
import Verif.Props.C23_Lru
import Verif.Props.C25_Fresh
import Verif.Props.C26_Tags
import Verif.Props.C29_Features
import Verif.Props.C34_Combinations
import Verif.Props.C35_Decision
import Verif.Props.C36_Rankings
import Verif.Props.C39_LogReg
import Verif.Props.C40_Classifier
import Verif.Props.C41_Tfidf
import Verif.Props.C42_Cooc
import Verif.Props.C43_Injection
import Verif.Props.C47_Archive
import Verif.Props.C47_Tree
import Verif.Props.C48_Exact
import Verif.Props.C49_Loading
import Verif.Props.C50_Clusters
import Verif.Props.C53_Ffi
import Verif.Props.C56_FromZip
import Verif.Props.C57_Relocation
import Verif.Props.C58_NoPanic
import Verif.Props.C59_Factories
import Verif.Props.C60_Layout
import Verif.Props.C61_Loadable
import Verif.Props.C62_Patterns
import Verif.Props.C63_Reproducible
import Verif.Props.C64_Lower
import Verif.Props.C65_Readers
import Verif.Props.C66_Json
import Verif.Props.C67_Score
import Verif.Props.C68_SlotOrigin
import Verif.Props.C69_Tags
import Verif.Props.C70_Nan
import Verif.Props.C71_Python
import Verif.Props.C72_Kotlin
import Verif.Props.C73_Swift
import Verif.Props.C74_SwiftValues
import Verif.Props.C75_Tagger
import Verif.Props.C76_Filters
import Verif.Props.C77_Narrowing
import Verif.Props.C78_SlotsAgree
import Verif.Props.C79_JsonText
import Verif.Props.C80_ResultJson
import Verif.Props.C81_LookupTable
import Verif.Props.C82_Python
import Verif.Props.C83_Reading
import Verif.Props.C84_Binary32
import Verif.Props.C85_Shares
import Verif.Props.C86_Machine
import Verif.Props.C87_Trained
import Verif.Props.C88_EngineThreads
import Verif.Props.C89_Messages
import Verif.Props.C90_InjectedEngine
import Verif.Props.C91_Injections
import Verif.Props.C92_SinglePrecision
import Verif.Props.C93_InjectMessages
import Verif.Props.C94_Machine32
import Verif.Props.C95_Cli
import Verif.Props.C96_MoreAlternatives
import Verif.Props.C97_Answering
import Verif.Props.C98_Builds
import Verif.Props.C99_ValidModel
import Verif.Spec.Answering
import Verif.Spec.Archive
import Verif.Spec.Base64
import Verif.Spec.Binary32
import Verif.Spec.Bindings
import Verif.Spec.BindingsDemo
import Verif.Spec.BlanksRead
import Verif.Spec.Builds
import Verif.Spec.ClassRows
import Verif.Spec.Classifier
import Verif.Spec.Cli
import Verif.Spec.Clock
import Verif.Spec.Declared
import Verif.Spec.Demo
import Verif.Spec.Engine
import Verif.Spec.EngineShared
import Verif.Spec.EngineStopWords
import Verif.Spec.Extension
import Verif.Spec.Extracting
import Verif.Spec.Extraction
import Verif.Spec.Factories
import Verif.Spec.FeatureNames
import Verif.Spec.Features
import Verif.Spec.Ffi
import Verif.Spec.FfiConcurrent
import Verif.Spec.FfiDemo
import Verif.Spec.Filters
import Verif.Spec.InjectMessages
import Verif.Spec.InjectedEngine
import Verif.Spec.Injection
import Verif.Spec.InjectionDemo
import Verif.Spec.Injections
import Verif.Spec.Json
import Verif.Spec.JsonText
import Verif.Spec.Keys
import Verif.Spec.Layout
import Verif.Spec.LetterCase
import Verif.Spec.LoadSafety
import Verif.Spec.Loading
import Verif.Spec.LoadingDemo
import Verif.Spec.LookupTable
import Verif.Spec.Lower
import Verif.Spec.Machine32
import Verif.Spec.Messages
import Verif.Spec.MoreAlternatives
import Verif.Spec.Nan
import Verif.Spec.OtherResources
import Verif.Spec.OtherStopWords
import Verif.Spec.ParserList
import Verif.Spec.Parsers
import Verif.Spec.PatternStopWords
import Verif.Spec.Patterns
import Verif.Spec.PlainText
import Verif.Spec.Python
import Verif.Spec.Ranges
import Verif.Spec.RankedMoved
import Verif.Spec.Readers
import Verif.Spec.Reading
import Verif.Spec.Relocation
import Verif.Spec.Renaming
import Verif.Spec.Requests
import Verif.Spec.Resources
import Verif.Spec.ResultJson
import Verif.Spec.Rule
import Verif.Spec.RuleDemo
import Verif.Spec.Safety
import Verif.Spec.Segments
import Verif.Spec.Sessions
import Verif.Spec.Shares
import Verif.Spec.SinglePrecision
import Verif.Spec.SlotOrigin
import Verif.Spec.SlotRenaming
import Verif.Spec.Slots
import Verif.Spec.StopWords
import Verif.Spec.SwiftValues
import Verif.Spec.TaggerShared
import Verif.Spec.Tags
import Verif.Spec.ThreadRequests
import Verif.Spec.Tokens
import Verif.Spec.Trained
import Verif.Spec.ValidModel
