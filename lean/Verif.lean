import Verif.Model.Book
import Verif.Model.DefaultData
import Verif.Model.Verse
import Verif.Model.Range
import Verif.Model.RangeList
import Verif.Model.Heap
import Verif.Spec
import Verif.Lemmas.Basic
import Verif.Lemmas.Order
import Verif.Lemmas.Walk
import Verif.Lemmas.AddSub
import Verif.Lemmas.VerseMore
import Verif.Lemmas.Range
import Verif.Lemmas.Split
import Verif.Lemmas.Split2
import Verif.Lemmas.Count
import Verif.Lemmas.Iter
import Verif.Lemmas.SetOps
import Verif.Lemmas.Shape
import Verif.Lemmas.Args
import Verif.Lemmas.Groups
import Verif.Lemmas.Regroup
import Verif.Lemmas.Merge
import Verif.Lemmas.ListOps
import Verif.Lemmas.Heap
import Verif.Lemmas.HeapInsert
import Verif.Lemmas.HeapOps
import Verif.Lemmas.HeapPop
import Verif.Lemmas.HeapWhole
import Verif.Lemmas.HeapSort
import Verif.Props.Verses
import Verif.Props.Ranges
import Verif.Props.RangeOps
import Verif.Props.RangeShapes
import Verif.Props.RangeArgs
import Verif.Props.Flags
import Verif.Props.RangeLists
import Verif.Props.RangeLists2
import Verif.Props.RangeWithList
import Verif.SpecLists
import Verif.Lemmas.HeapIndex
import Verif.Lemmas.HeapWorld
import Verif.Lemmas.HeapQuery
import Verif.Props.GroupedLists
import Verif.Model.Text
import Verif.Model.Str
import Verif.Model.Parser
import Verif.SpecText
import Verif.Lemmas.Text
import Verif.Lemmas.NameTable
import Verif.Lemmas.Names
import Verif.Props.Names
import Verif.Props.Parsing
import Verif.Lemmas.Grammar
import Verif.Props.Grammar
import Verif.Lemmas.StrText
import Verif.Lemmas.StrEval
import Verif.Lemmas.StrRange
import Verif.Props.Strings
import Verif.Lemmas.StrList
import Verif.Lemmas.StrRegroup
import Verif.Props.Strings2
import Verif.Props.Strings3
import Verif.Model.RangeHeap
import Verif.Lemmas.RangeHeap
import Verif.Lemmas.RangeHeap2
import Verif.Lemmas.RangeHeap3
import Verif.Lemmas.DiffTotal
import Verif.Lemmas.RangeHeap4
import Verif.SpecHistory
import Verif.Lemmas.History
import Verif.Lemmas.Ends
import Verif.Props.Histories
import Verif.Model.Calls
import Verif.Lemmas.Calls
import Verif.Props.Calls
import Verif.Model.Values
import Verif.SpecValues
import Verif.Props.Arguments
import Verif.Props.Constructors
import Verif.Props.Setters
import Verif.Model.Positions
import Verif.SpecPositions
import Verif.Lemmas.Positions
import Verif.Lemmas.Culprit
import Verif.Props.Positions
import Verif.SpecMeaning
import Verif.Lemmas.Meaning
import Verif.Props.Meaning
import Verif.Lemmas.SubExact
import Verif.Lemmas.RoundTrip
import Verif.Props.Steps
import Verif.Props.Defects
import Verif.Props.Differences
import Verif.Props.WholeCounts
import Verif.Props.DifferenceBounds
import Verif.SpecData
import Verif.SpecUnlisted
import Verif.Lemmas.Unlisted
import Verif.Lemmas.UnlistedText
import Verif.Props.Unlisted
import Verif.Model.Loops
import Verif.SpecLoops
import Verif.Lemmas.Loops
import Verif.Lemmas.LoopSpec
import Verif.Lemmas.GroupLoops
import Verif.Lemmas.LooseHeads
import Verif.Props.Loops
import Verif.Props.ArgumentOps
import Verif.Model.ListValues
import Verif.SpecListValues
import Verif.Props.ListArguments
import Verif.Model.Repr
import Verif.SpecShown
import Verif.Props.Reprs
import Verif.Props.SetLaws
import Verif.Model.Iterators
import Verif.SpecIterators
import Verif.Lemmas.Iterators
import Verif.Props.Iterators
import Verif.Props.Indices
import Verif.Props.FlagLaws
import Verif.Props.MergedGroups
import Verif.SpecSpelling
import Verif.Props.Spelling
import Verif.SpecFlags
import Verif.Lemmas.MoreFlags
import Verif.Props.MoreFlags
import Verif.SpecJoined
import Verif.Lemmas.Joined
import Verif.Props.Joined
import Verif.Model.Order
import Verif.SpecOrder
import Verif.Props.Order
import Verif.Props.SetCounts
import Verif.Model.Threads
import Verif.SpecThreads
import Verif.Lemmas.Threads
import Verif.Lemmas.Threads2
import Verif.Props.Threads
import Verif.Model.VerseIterators
import Verif.Props.VerseIterators
import Verif.Props.SplitUnique
import Verif.Props.WithoutMultibook
import Verif.Props.NamesOnly
import Verif.Props.StepLaws
import Verif.Tests.Verses
import Verif.Tests.Ranges
import Verif.Tests.RangeOperations
import Verif.Tests.RangeStrings
import Verif.Tests.Lists
import Verif.Tests.ListStrings
import Verif.Tests.GroupedLists
import Verif.Tests.Parsing
import Verif.Tests.Documented
import Verif.Lemmas.MergeWithout
import Verif.Props.MergeWithoutMultibook
import Verif.SpecGroupText
import Verif.Model.GroupStr
import Verif.Props.GroupStrings
import Verif.Props.SplitTwice
import Verif.Props.SplitNumber
import Verif.SpecSort
import Verif.Lemmas.SortCalls
import Verif.Props.SortDepth
import Verif.Props.NegativeSteps
import Verif.Props.StepOrder
import Verif.Props.Joints
