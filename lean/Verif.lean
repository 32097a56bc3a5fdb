import Verif.Model.Algorithms
import Verif.Model.Alloc
import Verif.Model.Basic
import Verif.Model.Callback
import Verif.Model.CaseInsensitive
import Verif.Model.CharClass
import Verif.Model.Codegen
import Verif.Model.CodepointSet
import Verif.Model.Constants
import Verif.Model.ConvertCase
import Verif.Model.Cost
import Verif.Model.CostMore
import Verif.Model.Escape
import Verif.Model.Generate
import Verif.Model.Headers
import Verif.Model.InOut
import Verif.Model.Library
import Verif.Model.Messages
import Verif.Model.Names
import Verif.Model.Normalize
import Verif.Model.Pointers
import Verif.Model.Print
import Verif.Model.Signed
import Verif.Model.Tables.CharClass
import Verif.Model.Tables.LowerCase
import Verif.Model.Tables.Normalization
import Verif.Model.Tables.TitleCase
import Verif.Model.Tables.UpperCase
import Verif.Model.Threads
import Verif.Model.ThreadsMore
import Verif.Model.ThreadsText
import Verif.Model.ThreadsViews
import Verif.Model.Unescape
import Verif.Model.Utf8
import Verif.Model.View
import Verif.Model.Width
import Verif.Proofs.Boundary
import Verif.Proofs.Canon
import Verif.Proofs.CaseDecompose
import Verif.Proofs.CaseInsensitive
import Verif.Proofs.CaseMarks
import Verif.Proofs.CasePieces
import Verif.Proofs.CharClass
import Verif.Proofs.Chars
import Verif.Proofs.ClassPieces
import Verif.Proofs.Clients
import Verif.Proofs.Compose
import Verif.Proofs.ComposeLoop
import Verif.Proofs.ConvertCase
import Verif.Proofs.Cost
import Verif.Proofs.CostBound
import Verif.Proofs.CostBound2
import Verif.Proofs.CostBound3
import Verif.Proofs.CostMore
import Verif.Proofs.Database
import Verif.Proofs.Decompose
import Verif.Proofs.Encode
import Verif.Proofs.Escape
import Verif.Proofs.Fits
import Verif.Proofs.GenerateCase
import Verif.Proofs.GenerateClass
import Verif.Proofs.GenerateClassData
import Verif.Proofs.GenerateNorm
import Verif.Proofs.Headers
import Verif.Proofs.Kept
import Verif.Proofs.KeptMore
import Verif.Proofs.KeptSplit
import Verif.Proofs.Library
import Verif.Proofs.MarkPairs
import Verif.Proofs.Messages
import Verif.Proofs.Normalize
import Verif.Proofs.NormalizeTables
import Verif.Proofs.Pointers
import Verif.Proofs.Program
import Verif.Proofs.Safety
import Verif.Proofs.SafetyEdit
import Verif.Proofs.SafetyMore
import Verif.Proofs.SafetySplit
import Verif.Proofs.Search
import Verif.Proofs.Skip
import Verif.Proofs.Slice
import Verif.Proofs.Text
import Verif.Proofs.Threads
import Verif.Proofs.ThreadsCalls
import Verif.Proofs.ThreadsLinear
import Verif.Proofs.ThreadsMoreRun
import Verif.Proofs.ThreadsMoreWait
import Verif.Proofs.ThreadsOutcome
import Verif.Proofs.ThreadsRun
import Verif.Proofs.ThreadsStop
import Verif.Proofs.ThreadsTextRun
import Verif.Proofs.ThreadsTextWait
import Verif.Proofs.ThreadsUnescape
import Verif.Proofs.ThreadsViewsRun
import Verif.Proofs.ThreadsViewsWait
import Verif.Proofs.ThreadsWait
import Verif.Proofs.ThreadsWaitCalls
import Verif.Proofs.ThreadsWaitRun
import Verif.Proofs.ThreadsWaitUnescape
import Verif.Proofs.ThreadsWithin
import Verif.Proofs.TitleDecompose
import Verif.Proofs.Unescape
import Verif.Proofs.UnescapeLoop
import Verif.Proofs.UnescapeNext
import Verif.Proofs.UnescapeStep
import Verif.Proofs.Utf8
import Verif.Proofs.Width
import Verif.Proofs.WidthCI
import Verif.Proofs.WidthDefault
import Verif.Proofs.WidthEdit
import Verif.Proofs.WidthEscape
import Verif.Proofs.WidthSplit
import Verif.Props.Alloc
import Verif.Props.Ascii
import Verif.Props.Basics
import Verif.Props.Callback
import Verif.Props.Case
import Verif.Props.CaseChar
import Verif.Props.CaseChars
import Verif.Props.CaseDecompose
import Verif.Props.CaseInsensitive
import Verif.Props.CaseInsensitiveFind
import Verif.Props.CaseInsensitiveOf
import Verif.Props.CaseInsensitiveReplace
import Verif.Props.CaseLaws
import Verif.Props.CaseLaws2
import Verif.Props.CaseSplit
import Verif.Props.CaseTables
import Verif.Props.CaseTrim
import Verif.Props.CharClass
import Verif.Props.CharClassLarge
import Verif.Props.Chars
import Verif.Props.Clients
import Verif.Props.Codec
import Verif.Props.Codegen
import Verif.Props.CodepointSet
import Verif.Props.Codepoints
import Verif.Props.ComposeAll
import Verif.Props.ComposeEquivalence
import Verif.Props.ComposeLaws
import Verif.Props.Composition
import Verif.Props.Concat
import Verif.Props.Consistency
import Verif.Props.Constants
import Verif.Props.Cost
import Verif.Props.CostMore
import Verif.Props.DecomposeChars
import Verif.Props.Decomposition
import Verif.Props.Edit
import Verif.Props.Escape
import Verif.Props.Find
import Verif.Props.FindWhere
import Verif.Props.FoldCongruence
import Verif.Props.FoldDecompose
import Verif.Props.FoldUpper
import Verif.Props.Generate
import Verif.Props.GenerateClass
import Verif.Props.GenerateNorm
import Verif.Props.Headers
import Verif.Props.HeadersUse
import Verif.Props.History
import Verif.Props.InOut
import Verif.Props.Lens
import Verif.Props.Library
import Verif.Props.Limits
import Verif.Props.Lines
import Verif.Props.Malformed
import Verif.Props.MalformedMixed
import Verif.Props.MalformedSearch
import Verif.Props.Memory
import Verif.Props.Messages
import Verif.Props.Names
import Verif.Props.NormalForm
import Verif.Props.Order
import Verif.Props.Pages
import Verif.Props.Pointers
import Verif.Props.Predicates
import Verif.Props.Print
import Verif.Props.Program
import Verif.Props.Records
import Verif.Props.Repaired
import Verif.Props.Replace
import Verif.Props.Resync
import Verif.Props.ReverseLaws
import Verif.Props.Safety
import Verif.Props.Signed
import Verif.Props.Slice
import Verif.Props.Sorting
import Verif.Props.Split
import Verif.Props.Threads
import Verif.Props.ThreadsStop
import Verif.Props.ThreadsWait
import Verif.Props.TitleDecompose
import Verif.Props.Traverse
import Verif.Props.Trim
import Verif.Props.Unescape
import Verif.Props.UnescapeAgree
import Verif.Props.UnescapeNext
import Verif.Props.View
import Verif.Props.Walk
import Verif.Props.Width
import Verif.Spec.Ascii
import Verif.Spec.Callback
import Verif.Spec.Case
import Verif.Spec.CaseDecompose
import Verif.Spec.CaseInsensitive
import Verif.Spec.Caseless
import Verif.Spec.CharClass
import Verif.Spec.Characters
import Verif.Spec.Clients
import Verif.Spec.CodepointSet
import Verif.Spec.Codepoints
import Verif.Spec.Cpp
import Verif.Spec.Escape
import Verif.Spec.Find
import Verif.Spec.History
import Verif.Spec.Library
import Verif.Spec.Malformed
import Verif.Spec.Memory
import Verif.Spec.Messages
import Verif.Spec.Names
import Verif.Spec.NormalForm
import Verif.Spec.Normalize
import Verif.Spec.Pointers
import Verif.Spec.Program
import Verif.Spec.Repair
import Verif.Spec.Replace
import Verif.Spec.Safety
import Verif.Spec.Sorting
import Verif.Spec.Split
import Verif.Spec.Template
import Verif.Spec.Text
import Verif.Spec.Threads
import Verif.Spec.ThreadsWait
import Verif.Spec.Traverse
import Verif.Spec.Trim
import Verif.Spec.UnescapeNext
import Verif.Spec.UnicodeData.CaseMappings
import Verif.Spec.UnicodeData.Categories
import Verif.Spec.UnicodeData.CombiningClasses
import Verif.Spec.UnicodeData.Decompositions
import Verif.Spec.Utf8
import Verif.Spec.View
import Verif.Spec.Width
import Verif.Spec.Words
import Verif.Tests.UpstreamAlgorithms
import Verif.Tests.UpstreamDecode
import Verif.Tests.UpstreamTables
import Verif.Tests.UpstreamUnescape
