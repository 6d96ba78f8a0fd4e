import Verif.Lemmas.ArrayListStep
import Verif.Lemmas.Asm
import Verif.Lemmas.CPySortBase
import Verif.Lemmas.CPySortGallop
import Verif.Lemmas.CPySortHi
import Verif.Lemmas.CPySortKeeps
import Verif.Lemmas.CPySortLo
import Verif.Lemmas.CPySortMain
import Verif.Lemmas.CPySortMerge
import Verif.Lemmas.CPySortPower
import Verif.Lemmas.CPySortRun
import Verif.Lemmas.CPySortSticky
import Verif.Lemmas.CPySortTop
import Verif.Lemmas.Calls
import Verif.Lemmas.Compare
import Verif.Lemmas.Construct
import Verif.Lemmas.Cpu
import Verif.Lemmas.Elems
import Verif.Lemmas.EvenObj
import Verif.Lemmas.EvenObjLinked
import Verif.Lemmas.Exact
import Verif.Lemmas.ExactLinked
import Verif.Lemmas.ExactObj
import Verif.Lemmas.ExactObjLinked
import Verif.Lemmas.ExactRange
import Verif.Lemmas.ExactSlice
import Verif.Lemmas.Foreign
import Verif.Lemmas.ForeignExact
import Verif.Lemmas.ForeignLinked
import Verif.Lemmas.ForeignLinkedExact
import Verif.Lemmas.ForeignLinkedSlice
import Verif.Lemmas.Get
import Verif.Lemmas.GfxHi
import Verif.Lemmas.GfxLo
import Verif.Lemmas.GfxMain
import Verif.Lemmas.GfxOverflow
import Verif.Lemmas.GfxPotential
import Verif.Lemmas.HashErase
import Verif.Lemmas.HashInsert
import Verif.Lemmas.HashMap
import Verif.Lemmas.HashProbe
import Verif.Lemmas.HashRun
import Verif.Lemmas.Heap
import Verif.Lemmas.Import
import Verif.Lemmas.IntArrayList
import Verif.Lemmas.IntLinkedList
import Verif.Lemmas.Ints
import Verif.Lemmas.IterWalk
import Verif.Lemmas.KeyCompare
import Verif.Lemmas.KeyOrder
import Verif.Lemmas.KeySort
import Verif.Lemmas.Ledger
import Verif.Lemmas.LedgerExact
import Verif.Lemmas.LengthHint
import Verif.Lemmas.Life
import Verif.Lemmas.LifeDepth
import Verif.Lemmas.LifeNested
import Verif.Lemmas.LifeStep
import Verif.Lemmas.Limits
import Verif.Lemmas.LinkedIter
import Verif.Lemmas.LinkedSession
import Verif.Lemmas.LinkedThreads
import Verif.Lemmas.ListSort
import Verif.Lemmas.LowAVX512
import Verif.Lemmas.LowAVX512Bad
import Verif.Lemmas.LowAVX512Range
import Verif.Lemmas.LowAVX512Rows
import Verif.Lemmas.Methods
import Verif.Lemmas.NamesExact
import Verif.Lemmas.Nodes
import Verif.Lemmas.ObjArrayList
import Verif.Lemmas.ObjLinkedList
import Verif.Lemmas.ObjLinkedSession
import Verif.Lemmas.ObjThreads
import Verif.Lemmas.Pool
import Verif.Lemmas.QReverse
import Verif.Lemmas.QReverse16
import Verif.Lemmas.Range
import Verif.Lemmas.Ready
import Verif.Lemmas.Refuse
import Verif.Lemmas.RefuseEnough
import Verif.Lemmas.RefuseInt
import Verif.Lemmas.RefuseLeak
import Verif.Lemmas.SelfSlice
import Verif.Lemmas.SimdCall
import Verif.Lemmas.SimdCopy
import Verif.Lemmas.SimdSet
import Verif.Lemmas.SimdSort
import Verif.Lemmas.Slice
import Verif.Lemmas.SliceRaise
import Verif.Lemmas.SortReentry
import Verif.Lemmas.SortSpec
import Verif.Lemmas.StdList
import Verif.Lemmas.Store
import Verif.Lemmas.StoreExact
import Verif.Lemmas.Stored
import Verif.Lemmas.Stream
import Verif.Lemmas.StreamExact
import Verif.Lemmas.Text
import Verif.Lemmas.Threads
import Verif.Lemmas.ThreadsRace
import Verif.Lemmas.ThreadsSim
import Verif.Lemmas.Tools
import Verif.Lemmas.Unsafe
import Verif.Lemmas.UnsafeObj
import Verif.Lemmas.With
import Verif.Model.ArrayIter
import Verif.Model.Asm
import Verif.Model.Base
import Verif.Model.CPySort
import Verif.Model.Calls
import Verif.Model.Construct
import Verif.Model.Cpu
import Verif.Model.Elems
import Verif.Model.Foreign
import Verif.Model.ForeignLinked
import Verif.Model.GfxSort
import Verif.Model.HashMap
import Verif.Model.Heap
import Verif.Model.Import
import Verif.Model.IntArrayList
import Verif.Model.IntLinkedList
import Verif.Model.KeyCompare
import Verif.Model.Ledger
import Verif.Model.LengthHint
import Verif.Model.Life
import Verif.Model.Limits
import Verif.Model.LinkedIter
import Verif.Model.LinkedSession
import Verif.Model.LinkedThreads
import Verif.Model.ListSort
import Verif.Model.LowAVX512
import Verif.Model.LowAVX512Table
import Verif.Model.Methods
import Verif.Model.MethodsObj
import Verif.Model.Nodes
import Verif.Model.ObjArrayList
import Verif.Model.ObjLinkedList
import Verif.Model.ObjLinkedSession
import Verif.Model.ObjThreads
import Verif.Model.Pool
import Verif.Model.QReverse
import Verif.Model.Ready
import Verif.Model.Refuse
import Verif.Model.RefuseInt
import Verif.Model.SimdCall
import Verif.Model.SimdCopy
import Verif.Model.SimdSet
import Verif.Model.SimdSort
import Verif.Model.SortReentry
import Verif.Model.StdList
import Verif.Model.Store
import Verif.Model.Stream
import Verif.Model.Text
import Verif.Model.Threads
import Verif.Model.Tools
import Verif.Model.Unsafe
import Verif.Model.UnsafeObj
import Verif.Model.With
import Verif.Props.ArrayIter
import Verif.Props.ArrayIterExact
import Verif.Props.ArrayListArith
import Verif.Props.ArrayListCompare
import Verif.Props.ArrayListHistory
import Verif.Props.ArrayListSlices
import Verif.Props.Asm
import Verif.Props.Calls
import Verif.Props.Construct
import Verif.Props.Cpu
import Verif.Props.Elems
import Verif.Props.EvenObj
import Verif.Props.EvenObjLinked
import Verif.Props.Exact
import Verif.Props.ExactEach
import Verif.Props.ExactLinked
import Verif.Props.ExactObj
import Verif.Props.ExactObjLinked
import Verif.Props.Foreign
import Verif.Props.ForeignExact
import Verif.Props.ForeignLinked
import Verif.Props.ForeignLinkedExact
import Verif.Props.GfxSort
import Verif.Props.HashMap
import Verif.Props.Import
import Verif.Props.InitExact
import Verif.Props.IntValues
import Verif.Props.IntValuesExact
import Verif.Props.IterWalk
import Verif.Props.KeyCompare
import Verif.Props.Ledger
import Verif.Props.LedgerExact
import Verif.Props.LengthHint
import Verif.Props.Life
import Verif.Props.LifeExact
import Verif.Props.Limits
import Verif.Props.LinkedIter
import Verif.Props.LinkedKept
import Verif.Props.LinkedList
import Verif.Props.LinkedMisc
import Verif.Props.LinkedThreads
import Verif.Props.LowAVX512
import Verif.Props.Methods
import Verif.Props.MethodsObj
import Verif.Props.NamesExact
import Verif.Props.Nodes
import Verif.Props.ObjArrayArith
import Verif.Props.ObjArrayList
import Verif.Props.ObjLinkedIter
import Verif.Props.ObjLinkedList
import Verif.Props.ObjThreads
import Verif.Props.Pool
import Verif.Props.PoolExact
import Verif.Props.RangeExact
import Verif.Props.Ready
import Verif.Props.RefusalExact
import Verif.Props.Refuse
import Verif.Props.RefuseInt
import Verif.Props.SimdCall
import Verif.Props.SimdCopy
import Verif.Props.SimdReverse
import Verif.Props.SimdSet
import Verif.Props.SimdSort
import Verif.Props.SliceRaise
import Verif.Props.Sort
import Verif.Props.SortExact
import Verif.Props.SortFailExact
import Verif.Props.SortReentry
import Verif.Props.SortReentryExact
import Verif.Props.Store
import Verif.Props.StoreExact
import Verif.Props.Stream
import Verif.Props.StreamExact
import Verif.Props.Text
import Verif.Props.TextExact
import Verif.Props.Threads
import Verif.Props.Tools
import Verif.Props.Unsafe
import Verif.Props.With
import Verif.Spec.Agree
import Verif.Spec.Aligned
import Verif.Spec.Asm
import Verif.Spec.Blocks
import Verif.Spec.Callbacks
import Verif.Spec.Calls
import Verif.Spec.Construct
import Verif.Spec.Copy
import Verif.Spec.Cpu
import Verif.Spec.Elems
import Verif.Spec.EvenObj
import Verif.Spec.EvenObjLinked
import Verif.Spec.Exact
import Verif.Spec.ExactLinked
import Verif.Spec.ExactObj
import Verif.Spec.ExactObjLinked
import Verif.Spec.ExactRange
import Verif.Spec.Foreign
import Verif.Spec.ForeignExact
import Verif.Spec.ForeignLinked
import Verif.Spec.Guard
import Verif.Spec.GuardCompare
import Verif.Spec.GuardIter
import Verif.Spec.GuardLedger
import Verif.Spec.GuardLinked
import Verif.Spec.GuardLow
import Verif.Spec.GuardMethods
import Verif.Spec.GuardMethodsObj
import Verif.Spec.GuardObj
import Verif.Spec.GuardObjLinked
import Verif.Spec.GuardVec
import Verif.Spec.HashMap
import Verif.Spec.Import
import Verif.Spec.Iter
import Verif.Spec.IterWalk
import Verif.Spec.KeyOrder
import Verif.Spec.Ledger
import Verif.Spec.LedgerExact
import Verif.Spec.LedgerHistory
import Verif.Spec.LengthHint
import Verif.Spec.Life
import Verif.Spec.Limits
import Verif.Spec.LinkedThreads
import Verif.Spec.LowAVX512
import Verif.Spec.LowAVX512Stubs
import Verif.Spec.Methods
import Verif.Spec.Names
import Verif.Spec.Nodes
import Verif.Spec.ObjList
import Verif.Spec.ObjSession
import Verif.Spec.ObjThreads
import Verif.Spec.Offered
import Verif.Spec.Pool
import Verif.Spec.PyList
import Verif.Spec.Range
import Verif.Spec.Ready
import Verif.Spec.Reentry
import Verif.Spec.Refuse
import Verif.Spec.RefuseInt
import Verif.Spec.Reverse
import Verif.Spec.Session
import Verif.Spec.SimdCall
import Verif.Spec.Sort
import Verif.Spec.Store
import Verif.Spec.Stream
import Verif.Spec.Text
import Verif.Spec.Threads
import Verif.Spec.Tools
import Verif.Spec.Vec
import Verif.Spec.With
import Verif.Vocab
import Verif.VocabAsm
import Verif.VocabCalls
import Verif.VocabCompare
import Verif.VocabConstruct
import Verif.VocabCpu
import Verif.VocabElems
import Verif.VocabForeign
import Verif.VocabHint
import Verif.VocabImport
import Verif.VocabLedger
import Verif.VocabLow
import Verif.VocabMap
import Verif.VocabMethods
import Verif.VocabNodes
import Verif.VocabObj
import Verif.VocabReady
import Verif.VocabRef
import Verif.VocabSimd
import Verif.VocabStream
import Verif.VocabText
import Verif.VocabTools
import Verif.VocabUnsafe
import Verif.VocabVec
import Verif.VocabWith
