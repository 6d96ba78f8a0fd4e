# Design

A formal model in Lean 4 of xia-mc/PyFastUtil (sources in /repo, C++), with the properties of `properties.jsonl` stated and
proved about it. The code was read as text only. The tie between model and code is the citation of file and lines on every
definition of the model.

Contents: conventions; what is modelled; what is not; trusted base; where the code and the properties disagree; each property with
plan, status, theorems and axioms; how the theorems were tested.

## Conventions

* `Verif/Vocab*.lean`: the syntax of API calls and Python objects (pure data), shared by specifications and model.
* `Verif/Spec/*`: specifications: Python list semantics, lexicographic order, ranges, addressed positions of a slice, sortedness and
  stability, finite maps, separate memory blocks, FIFO queue, ... They do not use the functions of the model. (Agree, Aligned,
  Callbacks, Exact*, Guard*, Iter, Pool, Reentry, Store import model modules for their types and states: configurations, outcomes, states.) `Spec/Guard*` are decidable
  domains of calls ("in this domain the class agrees with a Python list"); outside them there are negation theorems. `Spec/Exact*` are decidable domains for which the
  converse is proved too: a call agrees if and only if it is in them.
* `Verif/Model/*`: the model, function by function, each definition citing the lines it models and the simplifications made.
* `Verif/Lemmas/*`: helper lemmas. `Verif/Props/*`: property theorems, with `example`s that meet their hypotheses.
* An API call has one of four outcomes (`Out`, Model/Base.lean): `ok`, `exc` (exception), `pending` (a result was returned although
  an exception is set, which CPython answers with SystemError or with a stray exception later) and `ub`. The state of the container
  after the call is part of the first three.
* Undefined behaviour is the distinct outcome `ub` with its kind: out of bounds, invalid iterator, misaligned vector access, use
  after free, null dereference, signed overflow, type confusion, overlapping memcpy, invalid free; also non-termination. No
  function of the model is silently totalised: reading outside a list is `ub .outOfBounds`, and loops with fuel answer
  `ub .neverReturns` when it runs out (the theorems show that it does not, or does).
* Machine integers are `Int`/`Nat` with explicit wrapping or range checks at the places where the C++ has fixed width.
* Python version and CPU features are a parameter (`Cfg`): `le311`, `v312`, `ge313`, and the AVX-512, AVX2, SSE4.1, SSSE3 flags. Every
  theorem is for all of them unless it says otherwise.
* Where the code violates a property, the negation is proved (for all inputs of a described kind where possible, otherwise for a
  witness), and what does hold is kept as a theorem whose name ends in `_partial`.

## What is modelled

| module of the model | code |
|---|---|
| Base | utils/PythonUtils.h (PyFast_AsInt/Short/Char, PyFast_FromInt, PyParse_EvalRange), CPython's int layout and conversions, C integer types |
| IntArrayList | ints/IntArrayList.cpp and ints/BigIntArrayList.cpp: all methods and slots but sort and the buffer (one model, parameter `Kind`) |
| Limits | the same two files on a machine that may refuse memory: std::vector's length checks and growth, utils/memory/AlignedAllocator.h, handlers |
| Life | creation, `tp_init`, `tp_dealloc` and reference counts of IntArrayList/BigIntArrayList, IntLinkedList, ObjectArrayList, ObjectLinkedList; utils/PythonUtils.h 12-42 |
| Foreign | ints/IntArrayList.cpp, ints/BigIntArrayList.cpp: append, extend, index, count, insert, remove, getitem, slices, setitem, slice assignment, `+=`, comparisons, for arguments whose methods run Python code |
| ForeignLinked | ints/IntLinkedList.cpp: the same functions, with std::list iterators that such code may invalidate |
| ArrayIter | ints/IntArrayListIter.cpp, ints/BigIntArrayListIter.cpp, objects/ObjectArrayListIter.cpp |
| IntLinkedList, LinkedSession | ints/IntLinkedList.cpp with node identities, utils/Utils.h `at` |
| LinkedIter | ints/IntLinkedListIter.cpp, objects/ObjectLinkedListIter.cpp |
| ObjArrayList, ObjLinkedList, ObjLinkedSession | objects/ObjectArrayList.cpp, objects/ObjectLinkedList.cpp with a ledger of reference counts |
| Store, Heap | storage of the array lists: allocator blocks, capacity, buffers (get_buffer/release_buffer), copies |
| StdList | std::list operations at node level: splice based sort, reverse, erase (contract of libstdc++) |
| Nodes | std::list as memory of nodes with next/prev pointers and headers inside list objects: insert, erase, range erase, `at`, operator=, std::reverse, sort by relinking, clear, destruction; touching a freed node is UB (after libstdc++) |
| Elems | object lists with elements that have `__del__`, `__eq__`, `__ne__`: clear, del l[i], slice assignment of equal length, == and != down to cells, null pointers written by SAFE_DECREF and reference counts; methods of elements are functions on the whole state |
| CPySort | utils/include/CPythonSort.c: count_run, binarysort, gallop_left/right, merge_lo/hi, powerloop, merge stack, sort driver with key array |
| KeyCompare | the same file 1208-1361, 1448-1540: the check of the keys before the sort and the specialised comparisons |
| ListSort, SortReentry | the `sort` methods that call it, and the same with callbacks and threads that use the list meanwhile |
| GfxSort | utils/include/TimSort.h |
| SimdSort | utils/simd/BitonicSort.cpp (block sort, merges, tails, aligned buffers) |
| QReverse | utils/include/qreverse.hpp |
| SimdCopy | utils/simd/SIMDUtils.h, utils/memory/FastMemcpy.h |
| SimdSet | the set functions of unsafe/SIMD.cpp |
| LowAVX512, LowAVX512Table | unsafe/SIMDLowAVX512.cpp: all 1383 methods, extracted by a script that accepts only the one shape of the generated functions (GCC/Clang branch) |
| Cpu | utils/simd/SIMDHelper.cpp (CPUID/XGETBV decisions) |
| Unsafe, UnsafeObj | unsafe/Unsafe.cpp: memory functions, get_address/as_object/refcounts |
| Stream | unsafe/Unsafe.cpp 312-354: fputs, fflush, fgets on byte streams, with CPython's UTF-8 encoder and decoder and C's fgets |
| SimdCall | unsafe/SIMD.cpp 14-92, 288-375: memcpyX, memcpyXAligned, reverseX from the arguments to the bytes in memory |
| Methods | the type objects of the five lists (method tables, slots) as CPython turns them into attributes, calling conventions, argument parsing of all methods (IntArrayList.cpp 1172-1246 and the same places of the other files); calls by name on all lists (MethodsObj: object lists) |
| Ready | the type objects of the five lists and of the four classes of pyfastutil.unsafe after import (PyFastUtil.cpp 33-61, the `initialize…Type` and `PyInit_…` functions) and the places where CPython prepares a type by itself |
| Calls | unsafe/Unsafe.cpp 160-243: callVoid, callInt, callLongLong, call; the machine code is a parameter |
| With | unsafe/Unsafe.cpp 16-34, 357-358, 385-396 and the same in SIMD.cpp, SIMDLowAVX512.cpp, ASM.cpp: constructor, destructor, `__enter__`, `__exit__`, in programs of `with` statements |
| Tools | the method tables of Unsafe.cpp, SIMD.cpp and ASM.cpp: names, calling conventions, checks of the number of arguments |
| Text | objects/ObjectArrayList.cpp 1102-1137, objects/ObjectLinkedList.cpp 1012-1048: repr and str over nested lists and elements with code of their own |
| RefuseInt | ints/IntLinkedList.cpp: the calls that ask for nodes, on a machine that may refuse them |
| Ledger | ints/*List.cpp, ints/*ListIter.cpp, utils/include/CPythonSort.c 1431-1442, 1601-1604: the references that calls of the int lists take and release |
| Refuse | objects/ObjectArrayList.cpp, objects/ObjectLinkedList.cpp: the calls that ask for memory, on a machine that may refuse it, with references |
| Asm | unsafe/ASM.cpp with lock and registry |
| Threads | `reverse`, `*`, `*=` of the int array lists access by access, with other threads between any two (qreverse.hpp loops over Store) |
| LinkedThreads | `reverse` of the linked lists access by access (libstdc++ `__reverse`), other threads between any two (over Nodes) |
| ObjThreads | `reverse` of ObjectArrayList access by access, with reference counts |
| Pool | utils/thread/ScheduledThreadPool.h/.cpp |
| Import | PyFastUtil.cpp, the `PyInit_` functions, `initBitonicSort`, ints.py, objects.py, unsafe/__init__.py |
| HashMap | utils/include/UnorderedDense.h, the operations used by ints/IntIntHashMap.cpp and unsafe/ASM.cpp |

## What is not modelled

* Memory exhaustion: allocation succeeds, except where the code's handling of failure is the subject (C42, C10: MemoryError; C53: the int lists; C60: the object lists).
* Data races as such: threads are interleaved at the granularity of whole API calls (C37), of single loads and stores (C66) or of lock operations (C45, C50); weaker memory models are not.
* `std::sort` is trusted to sort with the given comparison (C16). `std::list` and `std::vector` are modelled by their contracts.
* Floating-point, read and write errors of the standard streams, the machine code run by `Unsafe.call*` and ASM functions (a parameter in C58).
* Type tables as such (but their methods are in C64, the method table of SIMDLowAVX512 in C51), `__class_getitem__`, Python stubs (only the one of
  SIMDLowAVX512 is, as specification), build scripts, the MSVC branches of SIMDLowAVX512.cpp, what the intrinsics compute (parameter).
* `setup.py` compiles everything with -mavx512*; that the compiler may then use AVX-512 anywhere is outside the model.

## Trusted base

* `VocabCompare`: what CPython's `<` does (`PyObject_RichCompareBool`, `object_richcompare` of int, str, float, tuple, reflected
  operands), written from the language reference and CPython's sources, with user classes as a parameter (C52).
* Lean 4.33.0's kernel. No axioms are added; every theorem depends on at most `propext`, `Classical.choice` and `Quot.sound` (listed
  per theorem below, obtained with `#print axioms`). No `sorry`, `native_decide`, `bv_decide`.
* The reading of the C++ code recorded in the citations.
* Contracts of what the code calls, as written down in the model: CPython's C API (PyArg_ParseTuple formats "n", "i", "K", "O", "|$Op";
  PyLong_AsLong / AsLongLong / AsSsize_t; PySlice_Unpack and PySlice_AdjustIndices; PyIter_Next; PySequence_Fast; PyObject_CallObject;
  PyObject_RichCompare; the layout of ints up to 3.11 and from 3.12), libstdc++ (`std::vector` growth as a parameter `grow` with
  `grow ≥ needed`, `std::list`, `std::sort`, `std::mutex`, `std::condition_variable`), x86 (lane order of the intrinsics used,
  alignment faults of aligned vector accesses), the C allocator, Windows' VirtualProtect (succeeds or fails arbitrarily).
* LP64 data model (C `long` has 64 bits).

## Where the code and the properties disagree

The code was left as it is. Each line names a negation theorem; details are with the property.

| property | disagreement (code) | theorem |
|---|---|---|
| C01 | from 3.12 on `PyFast_FromInt` (PythonUtils.h 149-155) builds int objects for negative, zero and large 32-bit values that read back differently | C01_negation, C01_linked_negation |
| C02, C49 | `PyLong_AsLong` truncated to `int` (IntArrayList, IntLinkedList): 2^32+1 is stored as 1 | C02_truncation_negation, C02_linked_truncation_negation |
| C03, C33 | extend(self) with the vector's own iterators, pop with `__index__`, slice deletion, non-index keys | C03_extend_self_negation, C03_pop_index_negation, C33 negations |
| C05 | `remove`/`count`/`in` truncate or raise for wide values | C05_overflow_negation and others |
| C07, C08 | slice assignment writes before it has converted everything; deletion and iterators unsupported | C07, C08 negations |
| C09 | descending from_range with a remainder; the element count overflows | C09 negations |
| C10 | `l + l2` of the same class: `PyObject_CallObject` with a non-tuple, always MemoryError | C10 negations |
| C11, C12 | `l * n`: aligned stores at unaligned offsets; `l *= n`: copies beyond the old size or loops for ever | C11, C12 negations |
| C13 | `l += l2` of the same class returns None | C13 negations |
| C15, C31 | linked and object comparison compares sizes first; `<=`/`>=` of equal lists | C15, C31 negations |
| C16 | the vector sort loses elements for every list of distinct ints it handles, or faults | C16_distinct_ints_lost, C16_oddSize_faults |
| C20, C21 | an exhausted iterator resumes; reversed iteration reads out of bounds after shrinking | C20, C21 negations |
| C22 | the list may grow or be dropped while a buffer is exported | C22_append_dangles, C22_drop_dangles |
| C25 | linked `pop(i)` reads the node after erasing it | C25 negations |
| C27, C28 | reversed linked iteration starts at end(); stale nodes | C27, C28 negations |
| C29, C32 | item assignment, `*= 0`, shrinking resize leak; growing slice assignment, growing resize, same-class construction do not count | C29, C32 negations |
| C30 | search by identity | C30 negations |
| C35 | exceptions of comparisons stay pending (int lists, ObjectLinkedList) | C35 negations |
| C37 | callbacks and threads may reallocate or clear the list during sort | C37_append_uaf, C37_threads_uaf, C37_int_linked_clear |
| C39, C40 | 16-byte reversal on AVX2; AVX-512 flags ignore the operating system and AVX512BW | C39, C40 negations |
| C42, C43 | realloc(p, 0); as_object steals a reference | C42, C43 negations |
| C44, C48 | sign lost on 3.12+, digits beyond the first ignored up to 3.11 | C44, C48 negations |
| C45 | freeFunction keeps the lock on error paths (ASM.cpp 268-290) | C45 negations |
| C51 | pointer parameters dereferenced twice, floats annotated `int`, constants unsupported without being marked, exceptions left pending | C51 negations |
| C50 | the queued task refers to a local of `submit` that is gone | C50 negations |
| C53 | extend and `+=` have no handler for bad_alloc and length_error; `*` and `*=` throw while the interpreter lock is released; slice assignment overwrites before it makes room | C53 negations |
| C53 | IntLinkedList: extend and `+=` have no handler; `*=` and slice assignment keep the nodes and values of the part they finished | C53_linked negations |
| C54 | `__init__` constructs over the old container; `tp_new` leaves linked lists zeroed; no cycle collection; no bound on nested destruction; same-class construction does not count references | C54 negations |
| C55 | `l[i] = x`, slice assignment and comparisons keep indices and sizes across foreign code; `!=` does not check the result of `==`; default stop of index is read before the arguments are parsed | C55 negations |
| C55 | IntLinkedList: append and extend store -1 when the argument raises; slice assignment and comparisons keep iterators across foreign code | C55_linked negations |
| C56 | SAFE_DECREF runs finalisers while the element is still in the list and writes a null pointer afterwards; comparisons hold no reference to the element and do not look at the size again | C56 negations |
| C57 | zero characters cut texts; fgets counts bytes, not characters, raises at the end, leaks its buffer, cuts sizes to 32 bits | C57 negations |
| C58 | callInt goes through PyFast_FromInt; call treats values of 9 to 16 bytes as addresses | C58 negations |
| C59 | repr has no guard against lists that contain themselves; the loops compute `size() - 1` anew and keep an iterator across `__repr__` | C59 negations |
| C60 | extend and += have no `try`; slice assignment, *= and the constructors change the list or count references before they ask for memory | C60 negations |
| C61 | `Py_INCREF` of freshly made ints in IntLinkedList.cpp 152, 480, 514 | C61 negations |
| C62 | `parseArgs` returns nothing and `IntArrayList_init` (48), `ObjectArrayList_init` (48) do not look whether it failed; `items` (IntArrayList.cpp 70, IntLinkedList.cpp 52) is kept while `__index__` runs; exceptions replaced (75, 86, 96); `PyList_Check` (63) accepts subclasses | C62 negations |
| C63 | SIMD.cpp 44-46, 64-66, 83-84: no conversion is followed by a check of the error, so that the error values (2^64 - 1, null) are used | C63_bad_count_negation, C63_bad_address_negation, C63_pending_negation |
| C64 | IntArrayList.cpp 296-300 and the other lists: `pop` looks at emptiness before the number of arguments | C64_pop_negation |
| C64 | IntArrayList.cpp 455-470 and the other lists: the format `\|Oi` lets `sort` take positional arguments; without a key the int lists compare `reverse` with 1 | C64_sort_positional_negation, C64_sort_reverse_negation |
| C65 | all type objects: `PyType_Ready` is not called (IntArrayList.cpp 1250-1267 and the other files) | C65_fetch_negation, C65_call_negation, C65_assign_negation, C65_tool_negation |
| C66 | `reverse`, `*`, `*=` release the interpreter lock while they work on the list (IntArrayList.cpp 804-809, 846-855, 901-903; BigIntArrayList.cpp 806-811, 848-857, 903-905) | C66_reverse_append_uaf, C66_reverse_torn, C66_reverse_pop, C66_imul_loses, C66_mul_append_uaf |
| C66 | `reverse` of the linked lists and of ObjectArrayList releases the lock too (IntLinkedList.cpp 843-845, ObjectLinkedList.cpp 764-766, ObjectArrayList.cpp 860-862) | C66_linked_clear_uaf, C66_linked_pop_uaf, C66_linked_torn, C66_obj_append_uaf, C66_obj_pop_dangles |
| C67 | up to 3.11 an exception while the extension module is filled can be forgotten; the tables of the sort are allocated in static initialisers; parts that could not be added are not given back | C67_again_negation, C67_abort_negation, C67_leak_negation |
| C68 | extend asks for the length hint but looks at the exception only after it has taken an item; ObjectArrayList keeps a reference to it; StopIteration is swallowed; linked lists do not ask | C68_item_lost, C68_stop_swallowed, C68_ObjectArrayList_leak, C68_linked_negation |
| C69 | `PyType_GenericNew` and the `tp_init` functions ignore arguments (Unsafe.cpp 16-19 and the same in the other three files); `__exit__` is METH_FASTCALL and does not look at `nargs` (Unsafe.cpp 31-34, 358) | C69_make_negation, C69_exit_negation |
| C70 | ASM.cpp 112, 168, 223, 254, 295, 317: NotImplementedError away from Windows, whatever the arguments; ASM.cpp 120, 231, 303: `args` is read without looking at `nargs` | C70_asm_negation, C70_asm_fast_negation |

## Properties: plan, status, theorems

Status: *proved* = the full statement; *partial* = either the full statement is proved on a stated domain, or the code violates it (then the
negation is proved too). Theorems are in namespace `Verif.Props`; what is said after each is its documentation comment.
Axioms: [p] = propext; [pq] = propext, Quot.sound; [pcq] = propext, Classical.choice, Quot.sound; [-] = none.

### C01 Integers read back from an int list are the integers that were stored

*Claim.* Every integer in the element range that was stored in an IntArrayList, BigIntArrayList or IntLinkedList is returned, as an ordinary Python int of the same value, by indexing, slicing, iteration, pop() and to_list(), on every supported CPython version.

*Plan.* Model CPython's int representation (sign, 30-bit digits) and both boxing routes; round trip through every reader. Known violation on >=3.12 for IntArrayList/IntLinkedList: negation + partial.

*Status: partial.* Exact read-back condition proved for both readers; negation for negative/large values of the 32-bit lists on 3.12+. Exact (iff) for every valid index.

* `C01_exact` [pcq] (ExactEach.lean): C01, exactly: `l[i]` of an existing position is right if and only if the element is one that the interpreter's object for it represents (`BoxOk`: from 3.12 on a positive number for the 32-bit lists).
* `C01_read_partial` [pcq] (IntValues.lean): C01 for array lists under `BoxOk` (BigIntArrayList; IntArrayList on CPython ≤ 3.11; IntArrayList elsewhere for 1 … 2^30-1): indexing, slicing, pop() and to_list() return the int CPython itself builds for the stored value. Missing: the other values of IntArrayList on 3.12+ (`C01_exact_iff`, negations), iteration (C20, C27).
* `C01_append_pop_partial` [pcq] (IntValues.lean): C01, round trip: for a value of the element type under `BoxOk`, `l.append(v); l.pop()` gives back the int `v` and the old contents, on any list.
* `C01_exact_iff` [pcq] (IntValues.lean): C01, exact domain: reading a stored value gives the ordinary int for it if and only if `BoxOk`.
* `C01_negation` [pcq] (IntValues.lean): C01 fails for IntArrayList on CPython 3.12+: every negative element (but -2^31) reads back with a different value, and negative, zero and values from 2^30 on read back as int objects that violate the interpreter's own invariant.
* `C01_linked_read_partial` [pcq] (LinkedMisc.lean): C01 for IntLinkedList, for elements the boxing handles (`BoxOk`): item access, `pop()`, `to_list()` and slices return the stored integers as ordinary Python ints. Missing: the other elements (`C01_linked_negation`) and `pop(i)` (`C25_pop_index_negation`).
* `C01_linked_negation` [pcq] (LinkedMisc.lean): Negation of C01 from Python 3.12 on, as for IntArrayList (`C01_negation`).

### C02 A value outside the element range is never stored as a different value

*Claim.* Adding an integer that does not fit the element type through the constructor, append, extend, insert, item or slice assignment raises an exception and no other integer appears in the list.

*Plan.* Conversions to 64 then 32 bits with wrap; theorem for the 64-bit class, negation + partial for the 32-bit ones.

*Status: partial.* Every stored element is in range; nothing foreign is stored by accepted calls outside the truncating conversions; negations for truncation. Exact (iff): which arguments append, insert and item assignment refuse, per interpreter version.

* `C02_invariant` [pcq] (IntValues.lean): Class invariant: whatever the call (also failing or misbehaving ones) and its arguments, if the process survives the call all elements are values of the element type. List operands of the same class satisfy the invariant themselves.
* `C02_invariant_history` [pcq] (IntValues.lean): … hence after any history.
* `C02_no_foreign_partial` [pcq] (IntValues.lean): C02 outside slice assignment: if no argument is silently truncated (always so for BigIntArrayList, `noTrunc_i64`; `insert` is not restricted), every element after the call was in the list before or is an integer the call offered. Missing: IntArrayList arguments in the 64-bit but not the 32-bit range, slice assignment (negations below).
* `C02_refused_partial` [pcq] (IntValues.lean): C02, the refusal: append, insert, item assignment, extend and += with an integer outside the element range among their arguments raise an exception, if no argument is silently truncated (always so for BigIntArrayList).
* `C02_truncation_negation` [pcq] (IntValues.lean): C02 fails for IntArrayList: every integer that fits 64 but not 32 bits is accepted by append and stored as a different value.
* `C02_slice_negation` [pq] (IntValues.lean): C02 fails for slice assignment on both classes: an integer beyond 64 bits raises OverflowError, but -1, which nobody offered, has replaced the element.
* `C02_linked_invariant` [pcq] (LinkedMisc.lean): Class invariant: whatever the call and its arguments, if the process survives the call all elements are 32-bit integers.
* `C02_linked_invariant_history` [pcq] (LinkedMisc.lean): … hence after any history.
* `C02_linked_truncation_negation` [pcq] (LinkedMisc.lean): Negation of C02: an integer outside 32 bits (but inside a C long) is silently truncated.
* `C02_linked_overflow_negation` [p] (LinkedMisc.lean): Negation of C02: an integer beyond a C long leaves −1 in the list (and a pending exception).
* `C02_refusal_exact` [pcq] (RefusalExact.lean): C02, exactly, for an integer beyond the element type: `insert` always refuses it; `append`, `l[i] = v`, `extend`, `+=` refuse it (raising, the list as before but for the items before it) if and only if it is also beyond the machine word.

### C03 An int array list behaves like a Python list over every operation history

*Claim.* Starting from any constructed IntArrayList or BigIntArrayList, any sequence of append, extend, insert, pop, remove, index, count, in, item get/set/delete, slice read, contiguous slice assignment, reverse, resize, clear, copy and to_list returns the same results, raises the same exceptions and leaves the same contents as the same sequence on a Python list of the same integers.

*Plan.* Refinement: step function of the class against an independent Python-list specification, lifted to histories by induction. The domain of agreement is characterised exactly (Spec/Exact.lean): for each call, agreement if and only if a condition on contents and arguments; the converse by exhibiting the deviation, for slice assignment by an invariant of the writing loops.

*Status: partial.* C03_exact and C03_history_exact: a call, and a history, agrees with a Python list if and only if it is in the decidable domain Exact, stated on contents and arguments only. The claim for all calls is false; Exact says exactly for which it holds.

* `C03_history_partial` [pcq] (ArrayListHistory.lean): C03, on histories inside the domain `HistoryOk` (Spec/Guard.lean). Missing for the full statement: the excluded calls, each of which deviates (theorems `C03_…_negation`, C01, C02, C05, C07, C10-C13).
* `C03_negation` [pq] (ArrayListHistory.lean): C03 fails for both classes on every configuration: `l.count(2**64)` raises OverflowError on the empty list (a Python list answers 0).
* `C03_extend_self_negation` [pq] (ArrayListHistory.lean): Further deviation: `l.extend(l)` passes the vector's own iterators to `vector::insert`, which the C++ standard excludes, for every list.
* `C03_pop_index_negation` [pq] (ArrayListHistory.lean): Further deviation: `pop` with an object that has `__index__` raises TypeError where a Python list pops, on every non-empty list.
* `C03_exact` [pcq] (Exact.lean): C03 for one call: on contents of the element type, below the greatest length there is, with an operand that can exist, the call does what a Python list does exactly when it is in `Exact`.
* `C03_history_exact` [pcq] (Exact.lean): C03 for histories: all outcomes are those of a Python list exactly when every call is in `Exact`, judged on the contents a Python list has at that point.
* `C03_first_deviation` [pcq] (Exact.lean): The first call of a history that is not in `Exact` is where it leaves the behaviour of a Python list: everything before agrees and that call does not.

### C04 Indexing an array list is safe and exact for every index

*Claim.* Reading, assigning, deleting or popping at any Python index either addresses exactly the element Python's list would address or raises IndexError (OverflowError for pop with an index beyond the machine word) and changes nothing; memory outside the list is never touched.

*Plan.* Decision logic of index normalisation with out-of-bounds as a distinct UB outcome.

*Status: proved.* Every index operand of l[i], l[i]=v, del l[i], pop(i), insert(i,v): exact position or the exception, never out of bounds.

* `C04_index_exact` [pcq] (ArrayListHistory.lean): C04 for reading, assigning and deleting: every Python int as index either addresses the element a Python list addresses (`Spec.position`) or raises IndexError and changes nothing; never undefined behaviour. The read returns the boxed element (the boxing itself is C01).

### C05 Search methods of int lists agree with Python's

*Claim.* index(v, start, stop), count(v), v in l and remove(v) on an int list find the same positions and raise ValueError in the same cases as on a Python list holding the same integers, for every integer v and every start/stop.

*Plan.* Refinement of each search method to the specification; truncation gives negation + partial.

*Status: partial.* Exact for values of the element type; negations: remove/count/in truncate or raise for wider values. The values on which remove, count, in and index agree are characterised exactly (iff) for all int lists.

* `C05_search_partial` [pcq] (ArrayListHistory.lean): C05 for values of the element type, every contents and all bounds of the machine word. Missing: values outside the element type (see the negations).
* `C05_truncation_negation` [pcq] (ArrayListHistory.lean): C05 fails for IntArrayList: every integer of the machine word outside the element type is found as the int it is congruent to modulo 2^32, which is another value.
* `C05_overflow_negation` [pq] (ArrayListHistory.lean): C05 fails for both classes beyond the machine word: `v in l` and `count(v)` raise OverflowError where Python answers.
* `C05_exact` [pcq] (ExactEach.lean): C05, exactly, array lists: `remove` and `count` are right for a value of the element type, and for others if they fit a machine word and no element has their low bits; `in` for the same ints and for all that are no ints; `index` for values of the element type.
* `C05_linked_exact` [pcq] (ExactEach.lean): C05, exactly, for IntLinkedList.

### C06 Reading a slice gives Python's slice

*Claim.* l[a:b:c] returns the list of the l[p], in order, for exactly the positions p that Python's slice addresses, for every start, stop and non-zero step, and never touches memory outside the list.

*Plan.* PySlice_AdjustIndices modelled; equality with an independent slice specification (set of addressed positions).

*Status: proved.* Every slice, all steps, None and huge fields, exact positions and order.

* `C06_slice_read` [pcq] (ArrayListSlices.lean): C06: for every start, stop and step (including None, negative, huge values and `__index__` objects) the result consists of the objects `l[p]` for exactly the positions `p` Python's slice addresses, in its order; a zero step is a ValueError, a non-integer a TypeError. Never out of bounds. The length hypothesis holds for every `std::vector`.

### C07 Contiguous slice assignment on an int array list gives Python's result

*Claim.* l[a:b] = s replaces exactly the addressed elements by the integers of s (shrinking or growing the list) for every a, b and sequence s, including s being l itself, and del l[a:b] deletes them.

*Plan.* Three length cases as loops over the vector, aliasing and deletion as separate inputs; negation + partial.

*Status: partial.* Contiguous assignment from every finite good source; negations for deletion, self-assignment, iterators, negative values from the same class on 3.12+. Exact (iff) for lists and tuples; deletion and assignment to extended slices never agree.

* `C07_slice_assign_partial` [pcq] (ArrayListSlices.lean): C07 for replacements that are another list of the class (values that survive boxing), or a list, tuple or sized sequence of in-range integers: exactly Python's result, whatever the lengths. Missing: the list itself, generic iterables, unsized sequences, deletion, unconvertible elements (negations below, C08).
* `C07_del_negation` [pcq] (ArrayListSlices.lean): C07 fails for every deletion `del l[a:b]` (any valid slice, any list): the code dereferences null.
* `C07_self_negation` [pcq] (ArrayListSlices.lean): C07 fails when a list is assigned to a slice of itself: `l[0:0] = l` on `[x, y]` gives `[x, x, x, y]` where Python gives `[x, y, x, y]`, for all distinct 64-bit `x`, `y`.
* `C07_iterator_negation` [pcq] (ArrayListSlices.lean): C07 fails for generic iterables: any iterator on the right raises TypeError.
* `C07_negative_same_negation` [pcq] (ArrayListSlices.lean): C07 fails for IntArrayList on CPython 3.12+: assigning from another IntArrayList with a negative element stores a different value.
* `C07_exact` [pcq] (ExactEach.lean): C07, exactly, array lists: assigning a Python list or tuple `xs` to `l[i:j]` (step 1) is right if every item is an element; otherwise the call must fail, as Python's does, at the first item that fits no machine word, at a position that holds -1, the items before it being there already.
* `C07_never` [pcq] (ExactEach.lean): C07, exactly: `del l[i:j:k]` is never right, and neither is an assignment with a step other than 1 from a list or tuple.

### C08 A failing assignment leaves an int list unchanged

*Claim.* When item assignment, slice assignment, append, insert, remove, pop or resize on an int list raises, the contents are the same as before the call.

*Plan.* Same model; negation for slice assignment, proof for the other methods.

*Status: partial.* All failing calls other than slice assignment leave the list unchanged (extend/+= keep the converted prefix); negation for slice assignment. Slice assignment exactly (iff): which of the assignments that raise leave the contents unchanged. IntLinkedList exactly (iff): which of the calls that fail leave the contents unchanged.

* `C08_unchanged_partial` [pq] (ArrayListHistory.lean): C08 without slice assignment: whenever the call raises, for whatever reason, the contents are those before the call.
* `C08_slice_negation` [pq] (ArrayListHistory.lean): C08 fails for slice assignment on both classes: `l[0:1] = [x]` with an unconvertible `x` raises and leaves -1 in place of the first element, for every non-empty list.
* `C08_linked_exact` [pcq] (LinkedKept.lean): C08 for IntLinkedList, exactly: of the calls that fail, raising or with an exception left set, these leave the contents as they were.
* `C08_linked_negation` [pq] (LinkedMisc.lean): Negation of C08: a failing `append` or `l[i] = x` has changed the list (and reports success with a pending exception).
* `C08_slice_exact` [pcq] (SliceRaise.lean): C08 for slice assignment, exactly: of the slice assignments that raise, for whatever reason, these leave the contents as they were.

### C09 from_range contains exactly the values of range()

*Claim.* from_range(stop), from_range(start, stop) and from_range(start, stop, step) contain exactly the integers of Python's range() with the same arguments whenever those fit the element type.

*Plan.* Arithmetic of the element count with signed overflow as UB; negation + partial for negative steps, and an exact iff between the result being the range and a condition on the three integers alone.

*Status: partial.* C09_exact, _two and _one characterise exactly the machine-word arguments for which the result is the range; negations: truncated descending count, sentinel, signed overflow.

* `C09_from_range_partial` [pcq] (ArrayListArith.lean): C09 for ascending ranges and for descending ranges whose step divides the distance, as long as no intermediate value overflows the machine word and no argument is the sentinel `PY_SSIZE_T_MAX`. Missing: the excluded arguments, see the negations.
* `C09_from_range_short` [p] (ArrayListArith.lean): One- and two-argument forms: `from_range(stop)` and `from_range(start, stop)` are step 1 (same exclusions).
* `C09_zero_step` [p] (ArrayListArith.lean): A zero step is a ValueError, as in `range`.
* `C09_descending_negation` [pcq] (ArrayListArith.lean): C09 fails for every descending range whose step does not divide the distance: the last element is missing.
* `C09_sentinel_negation` [p] (ArrayListArith.lean): C09 fails when `stop` is the largest machine word: `from_range(a, PY_SSIZE_T_MAX)` is read as `from_range(a)`.
* `C09_sentinel_witness` [p] (ArrayListArith.lean): … so `from_range(2, 2**63 - 1)` has two elements, 0 and 1, instead of starting at 2.
* `C09_overflow_negation` [pq] (ArrayListArith.lean): C09 fails near the end of the machine word: `from_range(2**63-3, 2**63-2, 5)` overflows a signed addition although the range has one element.
* `C09_exact` [pcq] (RangeExact.lean): C09: for machine words with a step other than zero, `from_range(start, stop, step)` returns the elements of `range(start, stop, step)` exactly for the arguments of `RangeExact`; for all others it returns another list or overflows.
* `C09_exact_two` [pcq] (RangeExact.lean): The call with two arguments has the domain of a unit step.
* `C09_exact_one` [pcq] (RangeExact.lean): The call with one argument works for every word whose predecessor fits the elements, except the largest.

### C10 Concatenation l + other returns the concatenation

*Claim.* l + other returns, for every pair of lists, a new list with the elements of l followed by those of other and leaves both operands unchanged.

*Plan.* PyObject_CallObject contract modelled (non-tuple argument); negation for same class, proof for list operands.

*Status: partial.* list operand exact (int, object array and object linked lists); same-class operand always MemoryError (negation). The operands that agree are characterised exactly (iff).

* `C10_add_list_partial` [pq] (ArrayListArith.lean): C10 for a Python list on the right: elements of both in order, operand unchanged (the elements of `l` are boxed as by `to_list`, see C01). Missing: an operand of the same class, where it fails.
* `C10_add_list_agrees` [pcq] (ArrayListArith.lean): C10 on a 64-bit list or where boxing is exact agrees with Python outright.
* `C10_add_same_negation` [pq] (ArrayListArith.lean): C10 fails for every pair of lists of the same class: `l + other` raises MemoryError.
* `C10_exact` [pcq] (ExactEach.lean): C10, exactly, array lists: `l + other` is right with a Python list if the elements are read back right, never with a list of the class, and always (a TypeError) with anything else.
* `C10_linked_list_partial` [p] (LinkedMisc.lean): C10 with a list on the right.
* `C10_linked_same_negation` [pq] (LinkedMisc.lean): Negation of C10: two IntLinkedLists cannot be added.
* `C10_ObjectArrayList_add_list` [pcq] (ObjArrayArith.lean): C10 (ObjectArrayList). `l + other` with a Python list is a new Python list with both contents, `l` is unchanged and exactly the new list's references are counted.
* `C10_ObjectArrayList_add_same_fails` [pq] (ObjArrayArith.lean): C10, deviation: `l + other` with a list of the same class, or with itself, raises MemoryError; Python gives the concatenation.
* `C10_ObjectLinkedList_add_same_fails` [p] (ObjLinkedList.lean): C10, deviation: `l + other` with a list of the same class, or with itself, raises MemoryError.
* `C10_ObjectLinkedList_add_list` [pcq] (ObjLinkedList.lean): C10 (ObjectLinkedList). `l + other` with a Python list.

### C11 Repetition l * n returns n copies

*Claim.* l * n (and n * l) returns a new list holding n copies of l, for every length and every n, on every CPU, without faulting.

*Plan.* Alignment of every vector store modelled; exact characterisation of the faulting lengths, negation + partial.

*Status: partial.* int lists: exact under the alignment condition of the copy, faults otherwise (negation); ObjectArrayList, ObjectLinkedList: exact for every n. Products beyond the memory of the machine are the subject of C53.

* `C11_mul_partial` [pcq] (ArrayListArith.lean): C11 when every copy starts at an address aligned for the vector stores the CPU selects. Missing: the other lengths, where the store faults (`C11_mul_fault`).
* `C11_mul_aligned` [pcq] (ArrayListArith.lean): … in particular when the length in bytes is a multiple of 64, or on a CPU without these instructions, or for less than two copies.
* `C11_mul_fault` [pcq] (ArrayListArith.lean): C11 fails exactly otherwise: the call faults on a misaligned vector store.
* `C11_mul_negation` [pcq] (ArrayListArith.lean): C11 fails on every AVX2 machine without AVX-512 for every list of 9 to 15 ints and at least two copies.
* `C11_linked_mul` [pq] (LinkedMisc.lean): C11: `l * n` and `n * l` are `n` concatenated copies, in full.
* `C11_ObjectArrayList_mul` [pq] (ObjArrayArith.lean): C11 (ObjectArrayList). `l * n` is a new list with `max n 0` copies, `l` is unchanged and exactly the new list's references are counted.
* `C11_ObjectLinkedList_mul` [pcq] (ObjLinkedList.lean): C11 (ObjectLinkedList). `l * n` is a new list with `max n 0` copies; `l` is unchanged.

### C12 In-place repetition l *= n leaves n copies

*Claim.* l *= n leaves exactly n copies of the old contents in l, for every length and every n, touches no memory outside the list and terminates.

*Plan.* Destination offsets modelled; negations for three classes, full proof for ObjectLinkedList contents.

*Status: partial.* ObjectLinkedList: exact for every n; other classes: n<=1 or empty exact, every other case out-of-bounds for the int lists, non-terminating for ObjectArrayList (negations). Products beyond the memory of the machine are the subject of C53. Exact (iff) for the int array lists.

* `C12_imul_partial` [pcq] (ArrayListArith.lean): C12 for at most one copy and for the empty list. Missing: everything else, where it fails.
* `C12_imul_negation` [pcq] (ArrayListArith.lean): C12 fails for every non-empty list and every count of two or more, on every CPU: the copies are written outside the vector (or a vector store faults before that).
* `C12_exact` [pcq] (ExactEach.lean): C12, exactly, array lists: `l *= n` is right for `n ≤ 1` and for the empty list only.
* `C12_linked_imul_partial` [pq] (LinkedMisc.lean): C12 for `n ≤ 1`. Missing: `n ≥ 2`.
* `C12_linked_imul_negation` [pq] (LinkedMisc.lean): Negation of C12: for `n ≥ 2` the call inserts a range of a list into that list, undefined in C++ …
* `C12_linked_doubling` [pq] (LinkedMisc.lean): … and where the library makes it work (libstdc++), each round doubles the list: `l *= n` leaves `2 ^ (n - 1)` copies, the right number exactly for `n = 2`.
* `C12_linked_doubling_negation` [pq] (LinkedMisc.lean): 
* `C12_ObjectArrayList_imul_partial` [pq] (ObjArrayArith.lean): C12 (ObjectArrayList). `l *= n` for `n ≤ 1`, or on an empty list, leaves `max n 0` copies.
* `C12_ObjectArrayList_imul_never_returns` [pq] (ObjArrayArith.lean): C12, deviation: `l *= n` with `n ≥ 2` never returns, for every non-empty list: after any number of iterations it is still running.
* `C12_ObjectLinkedList_imul` [pcq] (ObjLinkedList.lean): C12 (ObjectLinkedList). `l *= n` leaves exactly `max n 0` copies, for every list and every `n`; for `n ≥ 1` every count stays exact.

### C13 In-place addition keeps the name bound to the list

*Claim.* After l += other the name l still denotes the same list, now extended by the elements of other, whatever the class of other.

*Plan.* Return value modelled; negation + partial.

*Status: partial.* Exact for non-same-class operands; same-class += returns None (negation). The operands that agree are characterised exactly (iff).

* `C13_iadd_partial` [pcq] (ArrayListArith.lean): C13 for operands other than a list of the same class: the list itself is returned, extended by exactly the integers of the operand. Missing: operands of the same class, where it fails.
* `C13_iadd_same_negation` [pq] (ArrayListArith.lean): C13 fails for every right operand of the same class: the result is None, so the name is rebound to None (the list object is extended).
* `C13_exact` [pcq] (ExactEach.lean): C13, exactly, array lists: `l += other` is right unless `other` is a list of the class, or an item too wide for the element type comes before the first that fits no machine word.
* `C13_linked_iadd_partial` [pcq] (LinkedMisc.lean): C13: `l += other` for an iterable of good elements appends exactly them and gives the same object. Missing: a same-class operand (`C13_linked_same_negation`).
* `C13_linked_same_negation` [p] (LinkedMisc.lean): Negation of C13: with a same-class operand the elements are appended, but the result, which Python binds to the variable, is None.
* `C13_ObjectArrayList_iadd_partial` [pcq] (ObjArrayArith.lean): C13 (ObjectArrayList). `l += s` with anything iterable but a list of the class appends the items, those before an exception included, and gives the list; each is counted once.
* `C13_ObjectArrayList_extend_partial` [pcq] (ObjArrayArith.lean): C13 (ObjectArrayList). `extend` agrees with a Python list for everything but the list itself.
* `C13_ObjectArrayList_iadd_same_none` [pq] (ObjArrayArith.lean): C13, deviation: `l += other` with a list of the class appends the contents but gives None, so the variable is lost.
* `C13_ObjectArrayList_self_undefined` [pq] (ObjArrayArith.lean): C13, deviation: `l.extend(l)` and `l += l` hand the vector iterators into itself.
* `C13_ObjectLinkedList_extend_partial` [pcq] (ObjLinkedList.lean): C13 (ObjectLinkedList). `l += s` with anything iterable but a list of the class, and `extend` with anything but the list itself, append the items, those before an exception included.
* `C13_ObjectLinkedList_iadd_same_none` [pq] (ObjLinkedList.lean): C13, deviation: `l += other` with a list of the class appends the contents but gives None.

### C14 Comparison of int array lists is Python's lexicographic comparison

*Claim.* For every two int array lists, and for an int array list against a Python list of in-range integers, ==, !=, <, <=, >, >= give the answer of comparing the corresponding Python lists; so < is a strict total order consistent with ==.

*Plan.* Refinement to lexicographic order; order laws as corollaries.

*Status: proved.* All six operators lexicographic; strict total order laws at the API.

* `C14_compare` [pcq] (ArrayListCompare.lean): C14: all six operators between two lists of the class give the lexicographic comparison.
* `C14_compare_list` [pcq] (ArrayListCompare.lean): C14: … and against a Python list of in-range ints.
* `C14_strict_total_order` [pcq] (ArrayListCompare.lean): C14: `<` at the API is a strict total order consistent with `==`, `<=`, `>`, `>=`, `!=`.

### C15 Comparison of linked lists is Python's lexicographic comparison

*Claim.* For every two IntLinkedLists, and for one against a Python list of in-range integers, the six comparison operators give Python's list comparison.

*Plan.* Model of the size-first comparison; negation + partial.

*Status: partial.* ==, != exact; ordering exact at equal lengths except <= / >= of equal lists; negations for those, for different lengths and for negative elements. Exact (iff) for IntLinkedList against any IntLinkedList.

* `C15_exact` [pcq] (ExactEach.lean): C15, exactly: order of two IntLinkedLists. Lists of different lengths are taken to be in the order of the lengths; lists that look equal in no order; others are compared by what this list sees of the other's elements, which is wrong for negative ones from 3.12 on.
* `C15_eq_exact` [pcq] (ExactEach.lean): C15, exactly: equality of two IntLinkedLists.
* `C15_eq_partial` [pcq] (LinkedList.lean): C15, equality: `==` and `!=` against a list of ints that survive boxing are Python's.
* `C15_order_partial` [pcq] (LinkedList.lean): C15, order: against a list of the same length, `<` and `>` are Python's; `<=` and `>=` are Python's unless the lists are equal.
* `C15_reflexive_negation` [pcq] (LinkedList.lean): C15 fails: `l <= l` and `l >= l` are False for every list whose elements survive boxing.
* `C15_length_negation` [pcq] (LinkedList.lean): C15 fails for different lengths: the shorter list is less *and* less-or-equal *and* greater *and* greater-or-equal, the longer one none of them, whatever the elements.
* `C15_negative_negation` [pcq] (LinkedList.lean): C15 fails on CPython 3.12 and later: a list with a negative element is not equal to itself (nor to its copy), except for elements -2^31.

### C16 sort() without key leaves a sorted permutation

*Claim.* l.sort(reverse=r) on an IntArrayList or BigIntArrayList leaves a permutation of the old contents in non-decreasing (r true: non-increasing) order, for every contents and every CPU.

*Plan.* Model of the SIMD sorting network and merge; negation + partial (no-SIMD and short inputs).

*Status: partial.* Proved where the vector code is not used (fewer than eight elements, no AVX2/AVX-512, or at most one register full) and reverse is 0 or 1. The code violates the property elsewhere: C16_oddSize_faults (misaligned access, always, for 9 to 15 ints with AVX2 and AVX-512), C16_loses_int, C16_distinct_ints_lost (no list of distinct ints is sorted by the vector code), C16_loses_long, C16_reverse_ignored. C16_length_partial: what does hold on every CPU. With the vector code every element left was in the list or is 0 (C16_elements_partial).

* `C16_sorts_partial` [pcq] (SimdSort.lean): Without the vector code, up to 2^27 elements (missing: every list on a CPU with AVX2 or AVX-512 as soon as the vector code is used, where the statement is false; the values of `reverse` other than 0 and 1).
* `C16_length_partial` [pcq] (SimdSort.lean): What the vector code does keep: the call returns and the length is unchanged, except for `OddSize`.
* `C16_elements_partial` [pcq] (SimdSort.lean): What the vector code does keep for C ints: whatever is lost, each element left was there before, or is 0.
* `C16_zeros_partial` [pcq] (SimdSort.lean): Lists of zeros stay as they are, also with the vector code.
* `C16_oddSize_faults` [pcq] (SimdSort.lean): C16 is false: with AVX2 and AVX-512 the sort of nine to fifteen elements is always an access of a 64-byte register at an address that is not a multiple of 64.
* `C16_loses_int` [pcq] (SimdSort.lean): C16 is false: with vectors, an element of an `IntArrayList` that comes after one of the first four elements and is not itself found after them is gone from the result.
* `C16_distinct_ints_lost` [pcq] (SimdSort.lean): C16 is false: with vectors, a list of distinct C ints is never sorted: what is left is no permutation.
* `C16_loses_long` [pcq] (SimdSort.lean): C16 is false: with vectors, of a `BigIntArrayList` of numbers from 0 to 2^31 - 1 the first two elements are gone from the ascending result, and the smaller of them from the descending one (if not 0 and not found further on).
* `C16_reverse_ignored` [pcq] (SimdSort.lean): C16 is false: a true `reverse` other than 1 (Python: any non-zero integer) sorts ascending. Here on every CPU, for every list of at most seven elements, two of which differ.
* `C16_flag_range` [pq] (SimdSort.lean): A `reverse` that no C int holds raises, and the list stays.

### C17 The fallback merge sort sorts

*Claim.* On a CPU without AVX2 and AVX-512, sort() of more than 5000 elements (the timsort path) leaves a sorted permutation, never reads or writes outside the data, and terminates.

*Plan.* Model of gfx::timsort on arrays with out-of-bounds as failure; sorted permutation for all inputs.

*Status: partial.* Every strict weak order and every list below 2^60 elements: terminates, in bounds, stable sorted permutation. The int counter minGallop is proved not to overflow up to 2^27 elements; beyond that the overflow is not excluded.

* `C17_sorts` [pcq] (GfxSort.lean): For every strict weak order and every list of fewer than 2^60 elements the sort ends without a fault, and what it leaves is the old contents, sorted, equivalent elements in their old order.
* `C17_noOverflow_partial` [pcq] (GfxSort.lean): Up to 2^27 elements the counter `minGallop`, an `int`, never overflows either, so that the execution has no undefined behaviour at all.
* `C17_ascending_partial` [pcq] (GfxSort.lean): Ascending, on integers: a permutation in which no element is greater than one after it.
* `C17_descending_partial` [pcq] (GfxSort.lean): Descending (`std::greater`).

### C18 reverse() reverses

*Claim.* l.reverse() on IntArrayList, BigIntArrayList, ObjectArrayList leaves exactly the old elements in the opposite order for every length on every CPU.

*Plan.* Model of qReverse block loops on lists; equality with List.reverse for all flags.

*Status: proved.* IntArrayList, BigIntArrayList and ObjectArrayList: exact on every CPU.

* `C18_reverse_int` [pcq] (ArrayListHistory.lean): C18 (array lists of ints): reverse() reverses, for every length and CPU. The hypothesis is the class invariant (`C02_invariant`).
* `C18_ObjectArrayList_reverse` [pcq] (ObjArrayArith.lean): C18 (ObjectArrayList). `reverse()` reverses the contents on every CPU and leaves every count as it is.

### C19 repr() of an int list is the repr of the Python list

*Claim.* repr(l) and str(l) of an int list equal repr(list) of the same integers.

*Plan.* String building loop against an independent join.

*Status: proved.* IntArrayList, BigIntArrayList, IntLinkedList: exact for every contents.

* `C19_repr_array` [pq] (ArrayListHistory.lean): C19 (array lists): repr is Python's.
* `C19_linked_repr` [pq] (LinkedMisc.lean): C19: `repr(l)` is `[`, the decimal numerals of the elements separated by `, `, `]`.

### C20 Forward iteration of an array list under arbitrary modification

*Claim.* A forward iterator over an IntArrayList, BigIntArrayList or ObjectArrayList, interleaved in any way with modifications of the list, behaves as Python's list iterator (the i-th call yields the element at position i at that moment, or stops when i is not a valid position), never touches invalid memory, and on an unmodified list yields exactly the elements in order.

*Plan.* Iterator state machine interleaved with arbitrary list changes.

*Status: partial.* Exact positions for every interleaving; negation: an exhausted iterator resumes after growth. Exact (iff) over all interleavings.

* `C20_forward_positions` [pq] (ArrayIter.lean): C20, memory safety and positions, for every interleaving: the answers are exactly "element at the number of elements yielded so far, or stop", call by call; in particular never undefined behaviour.
* `C20_forward_partial` [pq] (ArrayIter.lean): C20: the same answers as CPython's list iterator up to and including the first stop, for every interleaving. Missing: after the first stop (`C20_exhausted_negation`).
* `C20_forward_unmodified` [pcq] (ArrayIter.lean): C20 on an unmodified list: exactly the elements in order, then stop for ever.
* `C20_exhausted_negation` [pcq] (ArrayIter.lean): C20 fails after exhaustion: whenever a forward iterator has stopped at position `i` and the list then grows beyond `i`, the next call yields again, where Python's iterator stays exhausted.
* `C20_exact` [pq] (ArrayIterExact.lean): C20, exactly: the iterator answers as Python's if and only if the list never becomes longer, after the first call that found no element, than it would have to be for another one (that call, number `k`, came after `k` elements). The lists `ls` are the contents found by the calls, whatever happened in between.

### C21 Reverse iteration of an array list under arbitrary modification

*Claim.* reversed(l) yields the elements last to first on an unmodified list; interleaved with modifications it never touches memory outside the list.

*Plan.* Same; negation (out-of-bounds read after shrinking) + partial.

*Status: partial.* Exact while the list does not shrink below the cursor; negations: out-of-bounds read after shrinking, empty list. Exact (iff) over all interleavings, and exactly when every read is inside the list.

* `C21_reverse_unmodified` [pq] (ArrayIter.lean): C21 on an unmodified list: the elements last to first, then stop for ever.
* `C21_reverse_partial` [pq] (ArrayIter.lean): C21 under modification: if no call finds the list shorter than it was when the iterator was created, every answer is that of CPython's reverse iterator (so no invalid memory is touched). Missing: shrinking lists (`C21_shrink_negation`), and iterators created on an empty list that grows (`C21_empty_negation`).
* `C21_shrink_negation` [pq] (ArrayIter.lean): C21 fails: if the list has shrunk to at most the iterator's position (but is not empty), next() reads outside the list. For every list of length at least two it suffices to remove the last element before the first call.
* `C21_pop_negation` [pq] (ArrayIter.lean): … and through the API: `r = reversed(l); l.pop(); next(r)` for any IntArrayList / BigIntArrayList of two or more elements.
* `C21_empty_negation` [p] (ArrayIter.lean): C21 deviates from Python for an iterator created on an empty list: it yields the first element added later.
* `C21_exact` [pq] (ArrayIterExact.lean): C21, exactly: an iterator made by `reversed` on a list of `n` elements answers as Python's if and only if, once the list is too short for the next element (at call `k` for the element `n - 1 - k`), it is empty and stays empty.
* `C21_exact_empty` [pq] (ArrayIterExact.lean): C21, exactly, for an iterator made on an empty list: the list stays empty.
* `C21_safe_exact` [pq] (ArrayIterExact.lean): C21, memory: no call reads outside of the list if and only if each call that finds a nonempty list finds it long enough for the position that the calls on nonempty lists before have led to.

### C22 A buffer obtained from an int array list stays valid

*Claim.* A memoryview (buffer) exported by an IntArrayList or BigIntArrayList refers to live memory of the reported length until it is released, whatever is done to the list in the meantime.

*Plan.* Block/capacity model of the vector; negation (growth while exported) + partial.

*Status: partial.* The code violates the property: neither growing nor dropping the list is prevented while a buffer is held. C22_append_dangles and C22_drop_dangles show that every non-empty buffer can be made dangling, C22_bytes_releases_garbage that a consumer with an uninitialised Py_buffer releases garbage; C22_partial proves validity for a list created with enough capacity that is not outgrown or dropped. Exact: a memoryview stays readable and writable after exactly the histories in which the list is not dropped and asks for no more than the room it had; after every other history each access is a use after free.

* `C22_partial` [pcq] (Store.lean): If the list was created with `exceptSize = n`, is not dropped, never exceeds `n` elements and is never extended by an iterator promising more, each of its memoryviews stays readable over its whole length, and shows the current elements of the list. Missing: all other lists.
* `C22_append_dangles` [pcq] (Store.lean): The property fails: take any memoryview of a live list, freshly made. After enough appends to the list every read through the view, at any index it admits, is a use after free.
* `C22_drop_dangles` [pcq] (Store.lean): Nor does the view keep the list alive: reading it after the last reference to the list is gone is a use after free.
* `C22_bytes_releases_garbage` [pcq] (Store.lean): A consumer that does not clear the `Py_buffer` it passes (as `bytes(l)` does not) releases a garbage object.
* `C22_exact` [pcq] (StoreExact.lean): Take a memoryview of a non-empty list, made after any history, and any later history that does not release it. There is a number of elements, at least those the list has now, such that: if the list is not dropped, never exceeds that number and is never extended by an operand promising more, then every item of the view is read, and is the current item of the list where it still has one; and otherwise reading any item of the view is a use after free.
* `C22_write_exact` [pcq] (StoreExact.lean): The same for writing: it stores the item in the list if the list stayed where it was, and is otherwise a write to freed memory.

### C23 copy() is independent of the original

*Claim.* After c = l.copy(), c has the elements of l and no later operation on one of the two changes the other.

*Plan.* Array lists: heap of blocks and list objects, frame theorem. Linked lists: memory of nodes with next and prev pointers, one ring per list object; every std::list operation the methods use refines the operation on sequences, rings of different objects share no node, hence copies are independent.

*Status: proved.* Array lists at the level of allocator blocks (C23_copy, C23_independent, C23_own_contents_only); linked lists at the level of the nodes of std::list, modelled after libstdc++ (C23_linked_*).

* `C23_linked_refines` [pcq] (Nodes.lean): Every history of linked lists (creation, copies, assignment, extension by another list, insertion, removal, slices, reversal, sorting, destruction) whose indices are in range, as the methods check: no operation touches a freed node, every call answers as on independent sequences, and after each call a loop over any list reads exactly its own sequence.
* `C23_linked_copy` [pcq] (Nodes.lean): Whatever has happened before, `c = l.copy()` succeeds for a linked list and gives a list with the same elements, leaving the original and all other lists as they are.
* `C23_linked_independent` [pcq] (Nodes.lean): No history on other linked lists, whatever it does to them or from them, changes a list: neither what happens to the original the copy, nor what happens to the copy the original.
* `C23_linked_range_needed` [pq] (Nodes.lean): What the hypotheses on the indices rule out: erasing at the end of a list is undefined behaviour.
* `C23_copy` [pcq] (Store.lean): Whatever has happened before, `c = l.copy()` succeeds for a live list and gives a list with the same elements, leaving the original and all other lists as they are.
* `C23_independent` [pcq] (Store.lean): No history of operations on other lists (or through other lists' memoryviews) changes a list: neither the original that of the copy, nor the copy that of the original.
* `C23_own_contents_only` [pcq] (Store.lean): What a call on a list answers and stores is determined by the elements of that list: it is what the call does on a list alone, wherever its elements are stored and whatever other lists there are.

### C24 An int linked list behaves like a Python list over every operation history

*Claim.* Any history of append, extend, insert, pop, remove, index, count, in, item get/set/delete, slice read, reverse, clear, copy, to_list on an IntLinkedList returns the results and leaves the contents that a Python list would, without touching freed memory.

*Plan.* Refinement as C03 on a model with nodes and freed-node outcome. The domain of agreement is characterised exactly (Spec/ExactLinked.lean), under both readings of inserting a list into itself.

*Status: partial.* C24_exact and C24_history_exact: a call, and a history, agrees with a Python list if and only if it is in the decidable domain LinkedList.Exact, stated on contents and arguments only; the claim for all calls is false. Node identities stay distinct in all histories; negations outside the domain.

* `C24_exact` [pcq] (ExactLinked.lean): C24 for one call: on any 32-bit contents below the greatest length there is, with an operand that can exist, the call does what a Python list does exactly when it is in `Exact`.
* `C24_history_exact` [pcq] (ExactLinked.lean): C24 for histories: all outcomes are those of a Python list exactly when every call is in `Exact`, judged on the contents a Python list has at that point.
* `C24_contents_decide` [pcq] (ExactLinked.lean): Whether a call of the linked list agrees does not depend on how the list came to its contents.
* `C24_history_partial` [pcq] (LinkedList.lean): C24 on histories inside the domain `HistoryOk` (Spec/GuardLinked.lean). Missing for the full statement: the excluded calls, each of which deviates (`C24_…_negation`, C25, C12, C13, C15).
* `C24_nodes_distinct` [pcq] (LinkedList.lean): C24, memory: over every history whatsoever the node identities stay distinct, so no node is linked twice and an iterator or position always denotes one node.
* `C24_append_negation` [pq] (LinkedList.lean): C24 fails in every configuration: `append` of a non-number appends -1 and reports success with an exception left set, on every list.
* `C24_negation` [pq] (LinkedList.lean): 
* `C24_set_negation` [pcq] (LinkedList.lean): C24: item assignment of a non-number overwrites the element by -1.
* `C24_extend_negation` [pq] (LinkedList.lean): C24: a failing `extend` leaves a -1 that was never offered, whatever the list.
* `C24_del_slice_negation` [pcq] (LinkedList.lean): C24: deleting a slice dereferences a null pointer, for every list and every valid slice.

### C25 pop(i) of a linked list returns the removed element

*Claim.* pop(i) with any valid index returns the element at that index and removes exactly it, without reading freed memory.

*Plan.* Erase-then-read in the node model; negation for pop(i), proof for pop().

*Status: partial.* pop() exact in both linked lists; pop(i) reads a freed node for every valid index (negations). Exact (iff): pop(i) agrees only where it is out of range.

* `C25_exact` [pcq] (ExactEach.lean): C25, exactly: `pop(i)` of an IntLinkedList is right only if there is no element `i` (and so an exception).
* `C25_pop_last_partial` [pcq] (LinkedList.lean): C25 without index: the last element is returned (boxed, see C01) and exactly it is removed.
* `C25_pop_index_negation` [pcq] (LinkedList.lean): C25 fails for every valid index on every list: the node is erased before its value is read.
* `C25_ObjectLinkedList_pop_last_partial` [pq] (ObjLinkedList.lean): C25 (ObjectLinkedList). `pop()` returns the last element, removes exactly it and passes the list's reference to the caller.
* `C25_ObjectLinkedList_pop_index_negation` [pcq] (ObjLinkedList.lean): C25, deviation: `pop(i)` reads a freed node for every valid index of every list.

### C26 Positional lookup in a linked list reaches the right node

*Claim.* For every length and position, the node reached (walking from the nearer end) is the one at that position, and it never walks past either end.

*Plan.* Walk from both ends proved equal to positional access.

*Status: proved.* Positional lookup is exact for every length and position.

* `C26_lookup` [pq] (LinkedList.lean): C26: for every length and every position the walk ends at that position (at `end()` for a position past the last node) and never steps over either end.
* `C26_lookup_value` [pq] (LinkedList.lean): C26 at the API: on any state the value found at a valid position is the value there, in any other case no node is dereferenced.

### C27 Iterating an unmodified linked list

*Claim.* iter(l) and reversed(l) of an unmodified IntLinkedList or ObjectLinkedList yield exactly the elements first to last and last to first.

*Plan.* Iterator state machine on the node model; forward full, reversed negation + partial.

*Status: partial.* Forward iteration exact in full; reversed iteration characterised exactly: right iff first and last element coincide (negation otherwise).

* `C27_forward` [pcq] (LinkedIter.lean): C27, forward, in full: on an unmodified list the iterator answers as Python's list iterator over the same contents, call by call, however often it is called.
* `C27_reversed_actual` [pcq] (LinkedIter.lean): What reversed iteration of an unmodified non-empty list does: last to second element, and then the last element once more instead of the first.
* `C27_reversed_partial` [pcq] (LinkedIter.lean): C27, reversed, for the lists whose first and last elements coincide (in particular one-element and empty lists): as Python's reverse iterator. Missing: all other lists.
* `C27_reversed_negation` [pcq] (LinkedIter.lean): Negation of C27 for reversed iteration: exactly the lists whose first and last elements differ are iterated wrongly.

### C28 Iterating a linked list while it is modified

*Claim.* Interleaving next() of a linked-list iterator with any modification of the list never dereferences a freed node, and each call yields the element at the iterator's current position as Python's list iterator would.

*Plan.* Same with modification counter; negations (stale node; skipped element) + partial.

*Status: partial.* Both linked lists: safety for all counted modifications, exact values when the size is unchanged; general negations for del, +=, append, clear, reversed.  C28_forward_exact, C28_reversed_exact and their ObjectLinkedList versions give the complete sequence of answers of the forward and the reverse iterator in every session of calls the forward iterator survives: the element it should answer, or one off once a counted call came in between, and for the reverse iterator also when it runs off the list.

* `C28_forward_exact` [pcq] (IterWalk.lean): C28, the forward iterator of an IntLinkedList, complete for the calls it can survive (`Tracked`) in the domain of the history theorem: the whole sequence of answers, as a function of the contents at each `next()` and of whether a call between two of them was one it notices (`Spec.walk`).
* `C28_reversed_exact` [pcq] (IterWalk.lean): C28, the reverse iterator of an IntLinkedList, likewise (`Spec.walkBack`); this one can run off the list.
* `C28_ObjectLinkedList_forward_exact` [pcq] (IterWalk.lean): C28, the forward iterator of an ObjectLinkedList, complete for the calls it can survive (`OTracked`) in the domain of the history theorem.
* `C28_ObjectLinkedList_reversed_exact` [pcq] (IterWalk.lean): C28, the reverse iterator of an ObjectLinkedList, likewise.
* `C28_values_partial` [pcq] (LinkedIter.lean): C28, values: if the calls between the `next()` calls leave the number of elements alone (`SizeKept`) and are in the domain of the history theorem (`HistoryOk`, see `C24_history_partial`), the answers are those of Python's list iterator. Missing: calls that change the number of elements.
* `C28_safe_partial` [pcq] (LinkedIter.lean): C28, memory safety of forward iteration: as long as the calls between the `next()` calls are reading calls, `l[i] = v`, `reverse`, `append`, `insert`, `remove`, `pop()` or `extend` with good items (`Tracked`), with whatever arguments and outcomes, no `next()` touches a freed node or dereferences `end()`. Missing: the calls that do not count as modifications in the code (`C28_del_negation`, `C28_iadd_negation`, `C28_clear_negation`).
* `C28_del_negation` [pcq] (LinkedIter.lean): Negation of C28, safety: after `p` steps `del l[p]` frees the node the iterator is going to read; the next step reads it (unless it was the last one).
* `C28_iadd_negation` [pcq] (LinkedIter.lean): Negation of C28, safety: when the iterator stands at the end, `l += [v]` makes the next step dereference `end()`.
* `C28_append_negation` [pcq] (LinkedIter.lean): Negation of C28, values: after `p` steps and an `append(v)`, the remaining old elements are yielded but the iterator stops before `v`; Python's iterator yields `v`.
* `C28_clear_negation` [pcq] (LinkedIter.lean): Negation of C28, safety, for `clear`: the freed nodes are still read after the list has been refilled by `+=`.
* `C28_reversed_negation` [p] (LinkedIter.lean): Negation of C28, safety, for reversed iteration: after the list has become shorter than the remaining index the iterator dereferences `end()`.
* `C28_ObjectLinkedList_values_partial` [pcq] (ObjLinkedIter.lean): C28 for ObjectLinkedList, values: if the calls between the `next()` calls leave the number of elements alone and are in the domain of the history theorem (`C33_ObjectLinkedList_history_partial`), the answers are those of Python's list iterator, and every object handed out is alive. Missing: calls that change the number of elements.
* `C28_ObjectLinkedList_safe_partial` [pcq] (ObjLinkedIter.lean): C28 for ObjectLinkedList, safety of forward iteration: as long as the calls between the `next()` calls are reading calls, `l[i] = o`, `reverse`, `append`, `insert`, `remove`, `pop()` or `extend` (`OTracked`) in the domain of the history theorem, every `next()` answers, and none touches a freed node, dereferences `end()` or hands out a dead object. Missing: the calls that do not count as modifications in the code (negations below).
* `C28_ObjectLinkedList_del_negation` [pcq] (ObjLinkedIter.lean): Negation of C28 for ObjectLinkedList: `del l[0]` of a list of two or more live objects frees the node the iterator is going to read.

### C29 Object lists keep reference counts balanced

*Claim.* Every operation on an ObjectArrayList or ObjectLinkedList changes each object's reference count by exactly the change in the number of references held by the list and the caller; so no element can be freed while the list holds it and nothing leaks when the list dies.

*Plan.* Reference-count ledger model; per-operation balance theorems and negations.

*Status: partial.* Both object lists: exact ledger over every session in the domain, client releases included; negations: item assignment, *= 0 and shrinking resize leak, growing slice assignment, growing resize and same-class construction do not count (use after free), l.extend(l) counts too often. Exact (iff) for ObjectArrayList and ObjectLinkedList: the calls, whatever they answer, after which every reference count is right.

* `C29_ObjectArrayList_exact` [pcq] (EvenObj.lean): C29 (ObjectArrayList), exactly. On every list of at most `PY_SSIZE_T_MAX` elements of which every object is counted exactly as often as it is held, with the client holding what it passes in: a call, whatever it answers or raises, touches nothing freed and leaves every object counted exactly as often as it is held if, and only if, it is one of `Keeps`.
* `C29_ObjectLinkedList_exact` [pcq] (EvenObjLinked.lean): C29 (ObjectLinkedList), exactly. On every list of at most `PY_SSIZE_T_MAX` elements of which every object is counted exactly as often as it is held, with the client holding what it passes in and a slice assignment not making more elements than that: a call, whatever it answers or raises, touches nothing freed and no node that is not there, and leaves every object counted exactly as often as it is held, if, and only if, it is one of `Keeps`.
* `C29_ObjectArrayList_session_partial` [pcq] (ObjArrayList.lean): C29 (ObjectArrayList). Over every session of calls in the domain, interleaved with the client giving up references of its own: nothing freed is touched, the contents are the specified ones, and every mortal object is counted once for each reference held by the client, once for each position in the list, and once for each reference lost by an item assignment, a shrinking `resize` or `*= 0` before. When the list then dies, only the client's and the lost references stay.
* `C29_ObjectArrayList_balanced_partial` [pcq] (ObjArrayList.lean): C29 (ObjectArrayList). In a session without item assignment, `resize` and `*=` every mortal object is counted exactly once per reference held by the client or the list, and when the list dies exactly the client's references remain.
* `C29_ObjectArrayList_setItem_leaks` [pcq] (ObjArrayList.lean): C29, deviation: item assignment never releases the element it replaces. For every balanced list and every valid index the replaced object is afterwards counted once more than it is held.
* `C29_ObjectArrayList_imul_resize_leak` [pq] (ObjArrayList.lean): C29, deviation: `*= n` with `n ≤ 0` empties the list and releases nothing; likewise a shrinking `resize`.
* `C29_ObjectArrayList_slice_growth_uncounted` [pcq] (ObjArrayList.lean): C29, deviation: assigning a Python list (or a list of the same class) to a slice it is longer than stores the additional objects without counting them: exactly the first `n` of them are counted, `n` the length of the slice.
* `C29_ObjectArrayList_use_after_free` [pq] (ObjArrayList.lean): C29, deviation in use: for every mortal object `o` the client holds once, `l[0:0] = [o]` followed by the client giving up `o` leaves a freed object in the list, and reading it is a use after free.
* `C29_ObjectArrayList_constructor_uncounted` [pq] (ObjArrayList.lean): C29, deviation: constructing a list from a list of the same class shares the references. For every non-empty list of mortal objects nobody else holds, the copy is left with freed objects when the original dies.
* `C29_ObjectArrayList_constructor_partial` [pq] (ObjArrayList.lean): C29 (constructor from a Python list or tuple, or any other iterable that does not raise): every object is counted once per position.
* `C29_ObjectArrayList_resize_growth_uncounted` [pq] (ObjArrayList.lean): C29, deviation (CPython before 3.12, where None is counted): a growing `resize` stores None without counting it.
* `C29_ObjectLinkedList_session_partial` [pcq] (ObjLinkedList.lean): C29 (ObjectLinkedList). Over every session of calls in the domain, interleaved with the client giving up references of its own: nothing freed is touched, the contents are the specified ones, and every mortal object is counted once for each reference held by the client, once for each position in the list, and once for each reference lost by an item assignment or `*= 0` before. When the list then dies, only the client's and the lost references stay.
* `C29_ObjectLinkedList_balanced_partial` [pcq] (ObjLinkedList.lean): C29 (ObjectLinkedList). In a session without item assignment and `*=` no reference is lost: every mortal object is counted exactly once per reference held by the client or the list.
* `C29_ObjectLinkedList_setItem_leaks` [pcq] (ObjLinkedList.lean): C29, deviation: item assignment never releases the element it replaces.
* `C29_ObjectLinkedList_imul_leaks` [pq] (ObjLinkedList.lean): C29, deviation: `*= n` with `n ≤ 0` empties the list and releases nothing.
* `C29_ObjectLinkedList_constructor_uncounted` [pq] (ObjLinkedList.lean): C29, deviation: constructing a list from a list of the same class shares the references; when the original of a non-empty list of mortal objects nobody else holds dies, the copy is left with freed objects.
* `C29_ObjectLinkedList_extend_self_leaks` [pq] (ObjLinkedList.lean): C29, deviation (`extend` read as the common implementations behave): `l.extend(l)` counts every element of the doubled list again, so each old element is counted once too often per position.

### C30 Object lists search by equality

*Claim.* index, count, remove and in of an object list find elements by Python equality (identity or ==), as a Python list does.

*Plan.* Identity vs abstract equality relation; negation + partial (equality coincides with identity).

*Status: partial.* Exact when equality is identity on the list; negations: equal but distinct elements are never found, `in` is False for everything but ints (both object lists). Exact (iff) in terms of the host's comparisons for both classes.

* `C30_exact` [pcq] (ExactEach.lean): C30, exactly, ObjectArrayList: `remove(o)` is right if Python's search by equality ends where a search by identity does; `count` if `o` equals as many elements as it is; `in` if the answer is that for an int which is itself an element.
* `C30_linked_exact` [pcq] (ExactEach.lean): C30, exactly, ObjectLinkedList.
* `C30_ObjectArrayList_search_partial` [pcq] (ObjArrayList.lean): C30 (ObjectArrayList). `index`, `count` and `remove` agree with a Python list when no element is equal to the sought object without being that object; `in` moreover only for ints and for objects not in the list.
* `C30_ObjectArrayList_misses_equal` [pcq] (ObjArrayList.lean): C30, deviation: an element that is equal to the sought object but is another object is never found, for all objects and all positions.
* `C30_ObjectArrayList_in_false` [p] (ObjArrayList.lean): C30, deviation: `in` answers False for every object that is not an int, also for the elements of the list.
* `C30_ObjectLinkedList_search_partial` [pcq] (ObjLinkedList.lean): C30 (ObjectLinkedList). `index`, `count` and `remove` agree with a Python list when no element is equal to the sought object without being that object; `in` moreover only for ints and for objects not in the list.
* `C30_ObjectLinkedList_misses_equal` [pcq] (ObjLinkedList.lean): C30, deviation: an element that is equal to the sought object but is another object is never found.
* `C30_ObjectLinkedList_in_false` [p] (ObjLinkedList.lean): C30, deviation: `in` answers False for every object that is not an int, also for the elements of the list.

### C31 Comparison of object lists is Python's lexicographic comparison

*Claim.* ==, !=, <, <=, >, >= between object lists (or with Python sequences) give the comparison Python's list gives for the same elements.

*Plan.* Abstract element comparison; negation + partial.

*Status: partial.* == always exact; the other operators in the stated domain; negations for different lengths, equal first elements and empty lists (both object lists). Exact (iff) for both classes against any list.

* `C31_exact` [pcq] (ExactEach.lean): C31, exactly, ObjectArrayList: order against another list is right if it is that of the lengths, or, for equal lengths, that of the first elements (false for empty lists); `!=` if the elements' `!=` gives the answer; `==` always (`CmpList`).
* `C31_linked_exact` [pcq] (ExactEach.lean): C31, exactly, ObjectLinkedList.
* `C31_ObjectArrayList_compare_partial` [pcq] (ObjArrayList.lean): C31 (ObjectArrayList). `==` always, and the other operators in the domain `CmpOk`, answer like a Python list.
* `C31_ObjectArrayList_eq` [pcq] (ObjArrayList.lean): C31 (ObjectArrayList). `==` with a list of the class, itself or a Python list is always Python's `==`, whatever the elements answer or raise.
* `C31_ObjectArrayList_order_lengths` [p] (ObjArrayList.lean): C31, deviation: lists of different lengths. All four order operators answer whether the list is shorter, whatever the elements are.
* `C31_ObjectArrayList_order_first` [pq] (ObjArrayList.lean): C31, deviation: lists of equal positive length. The answer is that for the first elements alone; with the same first object the rest is never looked at.
* `C31_ObjectArrayList_empty` [pq] (ObjArrayList.lean): C31, deviation: an empty list is neither `<=` nor `>=` an empty list.
* `C31_ObjectLinkedList_compare_partial` [pcq] (ObjLinkedList.lean): C31 (ObjectLinkedList). `==` always, and the other operators in the domain `CmpOk`, answer like a Python list.
* `C31_ObjectLinkedList_order_lengths` [p] (ObjLinkedList.lean): C31, deviation: lists of different lengths. All four order operators answer whether the list is shorter.
* `C31_ObjectLinkedList_order_first` [pq] (ObjLinkedList.lean): C31, deviation: lists of equal positive length. The answer is that for the first elements alone.

### C32 Slice assignment to an object list gives Python's result

*Claim.* l[a:b] = s on an ObjectArrayList or ObjectLinkedList (and l[a:b:c] = s of equal length) replaces exactly the addressed elements, owns references to the new ones and releases the old ones, including s being l itself.

*Plan.* Ledger model of the slice cases; negation + partial.

*Status: partial.* Contiguous assignment of every sized sequence exact except the linked list's backward slices that grow (negation); references balanced (array: unless a list grows the slice, negation); negations: own slice, extended slices of another length. Exact (iff) for lists: step 1 (array), the lengths that work (linked). Exact (iff) for l[i:j:k] = l of ObjectLinkedList: the repetitions the list must have.

* `C32_exact` [pcq] (ExactEach.lean): C32, exactly, ObjectArrayList: assigning a sequence to a slice is right if and only if the step is 1.
* `C32_linked_exact` [pcq] (ExactEach.lean): C32, exactly, ObjectLinkedList: if the lengths agree, or the step is 1 and the value is shorter, the slice does not end before it starts, or the elements between its end and its start look the same with the value pushed in before them.
* `C32_linked_self_exact` [pcq] (ExactEach.lean): C32, exactly, ObjectLinkedList, with the list itself as the value. Step 1: `l[:j] = l` if the elements from `j` on are all the same, `l[i:j] = l` if elements at distance `i` are the same and, when `j < i`, those before `i` at distance `j` (1 for 0) are the same as well; another step: the slice is the whole list and the list reads the same backwards (`SelfExact`).
* `C32_ObjectArrayList_slice_assignment_partial` [pcq] (ObjArrayList.lean): C32 (ObjectArrayList). `l[a:b] = s` with a sized sequence other than the list itself replaces exactly the addressed elements, whatever the lengths.
* `C32_ObjectArrayList_step_refused` [pcq] (ObjArrayList.lean): C32, deviation: any step other than 1 is refused, also for a value of the right length.
* `C32_ObjectArrayList_self_slice_null` [pcq] (ObjArrayList.lean): C32, deviation: assigning a non-empty list to its own full slice releases the first element and then reads the null pointer left in its place, for every list.
* `C32_ObjectLinkedList_slice_assignment_partial` [pcq] (ObjLinkedList.lean): C32 (ObjectLinkedList). `l[a:b] = s` with a sized sequence other than the list itself, when the slice does not end before it starts or the value is not longer than it, and `l[a:b:c] = s` of equal length, replace exactly the addressed elements; every count stays exact.
* `C32_ObjectLinkedList_backward_slice` [pcq] (ObjLinkedList.lean): C32, deviation: `l[a:b] = [x]` where the slice ends before it starts. Python inserts `x` at the start; the code inserts it at the end of the slice and then overwrites the element at the start.
* `C32_ObjectLinkedList_step_wrong_length` [pcq] (ObjLinkedList.lean): C32, deviation: an extended slice takes a value of another length and drops an element instead of raising ValueError: `[a, b, c, d][::2] = [x]` gives `[x, b, d]`, for all objects.
* `C32_ObjectLinkedList_self_reversed` [pcq] (ObjLinkedList.lean): C32, deviation: assigning a list to its own reversed slice loses an element: `l[::-1] = l` on `[a, b]` gives `[a, a]`, for all objects; Python gives `[b, a]`.

### C33 An object list behaves like a Python list over every operation history

*Claim.* Any history of append, extend, insert, pop, item get/set/delete, slice read, reverse, clear, copy, to_list on an object list returns the objects and leaves the contents that a Python list would.

*Plan.* Refinement as C03 over object ids. In addition an exact iff per call and over histories: the outcome of every call is computed, also where it deviates (searching by identity, comparing by first elements, growing slices), and compared with Python's; the resulting conditions on contents, arguments and the elements' answers are in Spec/ExactObj.lean and Spec/ExactObjLinked.lean.

*Status: partial.* Both object lists: every history in the domain agrees with a Python list. The calls that agree are characterised exactly (iff), per call and over histories, for both classes (ObjectArrayList histories: while no call stores an uncounted object). Negations for slice deletion and non-index keys.

* `C33_ObjectArrayList_exact` [pcq] (ExactObj.lean): C33 (ObjectArrayList), one call. On every list of at most `PY_SSIZE_T_MAX` elements, with the client holding what it passes in: the call has the result and leaves the contents of a Python list if, and only if, it is one of `Exact`.
* `C33_ObjectArrayList_history_exact` [pcq] (ExactObj.lean): C33 (ObjectArrayList), histories. As long as no call stores an object without counting it (`Counted`), a history agrees with a Python list call by call if, and only if, each of its calls is exact on the contents Python's list has by then.
* `C33_ObjectLinkedList_exact` [pcq] (ExactObjLinked.lean): C33 (ObjectLinkedList), one call. On every list of at most `PY_SSIZE_T_MAX` elements, with the client holding what it passes in: a call of a method of the class has the result and leaves the contents of a Python list if, and only if, it is one of `Exact`.
* `C33_ObjectLinkedList_history_exact` [pcq] (ExactObjLinked.lean): C33 (ObjectLinkedList), histories. A history of such calls agrees with a Python list call by call if, and only if, each of its calls is exact on the contents Python's list has by then.
* `C33_ObjectArrayList_history_partial` [pcq] (ObjArrayList.lean): C33 (ObjectArrayList). Every history of calls in the domain gives, call by call, the result and the contents of a Python list, and no undefined behaviour; the client holds the objects it passes in.
* `C33_ObjectArrayList_del_slice_null` [pcq] (ObjArrayList.lean): C33, deviation: `del l[a:b]` dereferences a null pointer for every list and every well-formed slice, where Python deletes the addressed elements.
* `C33_ObjectArrayList_bad_key` [p] (ObjArrayList.lean): C33, deviation: a subscript that is neither an integer nor a slice is used as a slice object.
* `C33_ObjectLinkedList_history_partial` [pcq] (ObjLinkedList.lean): C33 (ObjectLinkedList). Every history of calls in the domain gives, call by call, the result and the contents of a Python list, and no undefined behaviour; the client holds the objects it passes in.
* `C33_ObjectLinkedList_del_slice_null` [pcq] (ObjLinkedList.lean): C33, deviation: `del l[a:b]` dereferences a null pointer for every list and every well-formed slice.
* `C33_ObjectLinkedList_bad_key` [p] (ObjLinkedList.lean): C33, deviation: a subscript that is neither an integer nor a slice is used as a slice object.

### C34 sort(key) and object sort give a stable sorted permutation

*Claim.* Sorting an object list (or an int list with a key) by a comparison that is a strict weak order leaves a permutation that is sorted, with equal elements in their original order, both for reverse false and true.

*Plan.* Full model of the merge sort (runs, binary insertion, galloping merges, powersort stack); sortedness, permutation and stability.

*Status: partial.* Object lists: full, every strict weak order, both directions, with and without key. Int lists with a key: every value that survives the trip through int objects; negations for the rest (negative on 3.12+, 2^30 and more up to 3.11). Int lists exactly (iff): the contents for which a sort with a key is right, per class and interpreter version.

* `C34_result_unique` [p] (Sort.lean): C34, the specification is complete: a list has at most one stable sort.
* `C34_object_array` [pcq] (Sort.lean): C34 for ObjectArrayList, with or without key: for every strict weak order `sort` succeeds and leaves the stable sort of the elements, both directions.
* `C34_object_linked` [pcq] (Sort.lean): C34 for ObjectLinkedList: same, the nodes stay and only their values move.
* `C34_int_array_partial` [pcq] (Sort.lean): C34 for IntArrayList and BigIntArrayList with a key, for `Sendable` values: every BigIntArrayList; IntArrayList up to 3.11 with |v| < 2^30, from 3.12 with 0 < v < 2^30. The key function sees the ordinary ints. Missing: other values of IntArrayList (`C34_negation_312`, `C34_negation_311`).
* `C34_int_linked_partial` [pcq] (Sort.lean): C34 for IntLinkedList with a key, same values; the nodes stay and only their values move.
* `C34_negation_312` [pcq] (Sort.lean): C34 fails for IntArrayList from CPython 3.12 on: if the list has a negative element (other than -2^31), then whatever the key function does, sort returns None with an OverflowError pending and every such element has been replaced by -1.
* `C34_negation_311` [pcq] (Sort.lean): C34 fails for IntArrayList up to CPython 3.11: sort(key) replaces every element by its low 30 bits (with its sign).
* `C34_int_array_kept_exact` [pcq] (SortExact.lean): C34 for the int array lists, exactly: with a key function and a comparison that never raise, `sort(key=...)` succeeds and leaves a permutation of the elements if and only if every element is one of the values it gives back.
* `C34_int_array_exact` [pcq] (SortExact.lean): C34 for the int array lists, exactly: with a key function that depends on the value of the int it is given, `sort(key=...)` succeeds and stably sorts the list if and only if every element is one of the values it gives back.
* `C34_int_linked_exact` [pcq] (SortExact.lean): C34 for IntLinkedList, exactly: the same values, and then the nodes stay and only their values move.

### C35 Sorting with a misbehaving comparison never loses elements

*Claim.* For every comparison function - inconsistent, stateful or raising at any point - the object sort terminates, never reads or writes outside the array or its work area, and leaves a permutation of the elements; if the comparison raises, the exception propagates.

*Plan.* Same model with an arbitrary stateful, possibly failing comparator.

*Status: partial.* ObjectArrayList: full, arbitrary stateful and raising callbacks. ObjectLinkedList and the int lists: memory safety and permutation; negation: the exception is left pending instead of raised. Exact: for all callbacks, the linked and int lists leave what ObjectArrayList leaves and return with the exception pending exactly where it raises (C35_object_linked_exact, C35_int_array_exact, C35_int_linked_exact).

* `C35_object_array` [pcq] (Sort.lean): C35 for ObjectArrayList: for every key function, comparison and allocator - inconsistent, stateful, raising at any point - sort terminates without touching memory outside the array and the work area (no `Fault`), the elements afterwards are a permutation of the elements before, it either succeeds or raises exactly the exception of the last callback made, and it succeeds only if no callback raised.
* `C35_object_linked_partial` [pcq] (Sort.lean): C35 for ObjectLinkedList: no fault, and the elements afterwards are a permutation of the elements before. Missing: a callback's exception is left pending instead of being raised (`C35_linked_negation`).
* `C35_int_array_partial` [pcq] (Sort.lean): C35 for the int lists with a key: no fault; the elements afterwards are those before as they come back through objects. Missing: exceptions are left pending (`C35_int_negation`), `sent` is not the identity (C34).
* `C35_linked_negation` [p] (Sort.lean): C35 fails for ObjectLinkedList: when the key function raises, sort returns None with the exception pending, for every non-empty list.
* `C35_int_negation` [pcq] (Sort.lean): C35 fails for IntArrayList, BigIntArrayList (and IntLinkedList, which runs the same code): when the key function raises, sort(key) returns None with an exception pending, for every non-empty list.
* `C35_object_linked_exact` [pcq] (SortFailExact.lean): ObjectLinkedList against ObjectArrayList, for all callbacks. Without memory for the copy it raises MemoryError and changes nothing. Otherwise it makes the same callbacks and leaves the same elements in its nodes; where ObjectArrayList returns, it returns, and where ObjectArrayList raises, it returns with that exception pending. So it does what C35 asks exactly if no callback raises.
* `C35_int_array_exact` [pcq] (SortFailExact.lean): IntArrayList and BigIntArrayList with a key against ObjectArrayList on the int objects they make, for all callbacks: without memory MemoryError, nothing changed. Otherwise the same callbacks are made and the elements are left in the same order, as they come back through objects; the call returns, with OverflowError pending if an element does not come back, else with the exception pending that ObjectArrayList raises, if it raises one.
* `C35_int_linked_exact` [pcq] (SortFailExact.lean): IntLinkedList with a key: as IntArrayList, with the values in the nodes it had.

### C36 The merge stack of the object sort cannot overflow

*Claim.* While sorting any array whose length fits Py_ssize_t the number of pending runs never exceeds the fixed capacity of the pending-run table.

*Plan.* Power invariant of the pending stack; bound by the bit length of n.

*Status: proved.* Every caller, every list of fewer than 2^60 elements: no table or work-area overflow; stack-buffer areas disjoint for every length.

* `C36_pending_runs` [pcq] (Sort.lean): C36: for every caller, list and direction the number of pending runs stays within the table (a push beyond it would be the outcome `stackFull`).
* `C36_no_fault` [pcq] (Sort.lean): C36: the sort never runs into any other fault either: no access outside the array or work area, no failed assertion, no uninitialised power, no overflow of a length computation, no endless loop.
* `C36_stack_buffer` [pcq] (Sort.lean): C36: the areas that share the 256-slot stack buffer (merge work area for keys and for values, key array) lie inside it and do not overlap, for every length.

### C37 A key function may not corrupt the list being sorted

*Claim.* If key or comparison callbacks (or another thread, while the sort has released the interpreter lock) modify the list during sort(), the program keeps accessing only live memory.

*Plan.* Interleaving model of sort and a concurrent/reentrant mutator; negation + partial.

*Status: partial.* Holds for callbacks and threads that leave the list alone, for lists kept within the capacity they were created with, and for linked lists that are not shortened; the code violates it otherwise: for every non-empty list an appending key function or thread gives a use after free, a clearing key function an invalid iterator. Data races as such and the reference counts of elements removed by callbacks are not modelled. Exact: int array lists with callbacks (C37_exact) and with threads (C37_threads_exact), linked lists (C37_int_linked_exact, C37_object_linked_exact) and the key loop of ObjectArrayList (C37_object_array_keys_exact) - which callbacks and interleavings the sort survives.

* `C37_elsewhere_partial` [pcq] (SortReentry.lean): After any history: if key function and comparisons operate on other lists only, `o.sort(key=…, reverse=…)` leaves in `o` and answers exactly what the sort of these elements alone does, in the memory the callbacks leave, and does not touch the other lists. Missing: callbacks that use `o`.
* `C37_room_partial` [pcq] (SortReentry.lean): If the list was created with `exceptSize = n` and neither before nor during the sort is made (or promised to become) longer than `n`, then callbacks may use the list itself, even change it: the sort has no undefined behaviour. Its result overwrites the front of what the callbacks left. Missing: lists that outgrow what they were created for.
* `C37_append_uaf` [pcq] (SortReentry.lean): The property fails: after any history and for every live, non-empty list there is a key function that only appends to the list and answers normally, and a comparison that always answers False, such that the sort writes into freed memory.
* `C37_threads_partial` [pcq] (SortReentry.lean): While `o.sort()` runs without the lock, other threads may do anything with other lists: whatever the sort stores and the others do in between, each access of the sort finds its storage. Missing: threads that use `o`.
* `C37_threads_uaf` [pcq] (SortReentry.lean): The property fails: for every live, non-empty list there are appends by another thread after which each access of a sort of this list, in progress, is a use after free.
* `C37_int_linked_partial` [pcq] (SortReentry.lean): `IntLinkedList.sort(key=…)`: if the callbacks never leave the list shorter than it was at the start, there is no undefined behaviour; the sorted elements overwrite the front of what the callbacks left. Missing: callbacks that shorten the list.
* `C37_int_linked_clear` [pcq] (SortReentry.lean): The property fails: with a key function that clears the list and answers normally, the sort of every non-empty list writes through an iterator behind the last node.
* `C37_object_linked_partial` [pcq] (SortReentry.lean): `ObjectLinkedList.sort(key=…)` or `sort()`: the same for lists of objects. What overwrites the front is a permutation of the elements of the start. Missing: callbacks that shorten the list; reference counts.
* `C37_object_linked_clear` [pcq] (SortReentry.lean): The property fails for ObjectLinkedList: a key function that clears the list and answers normally makes the sort of every non-empty list write through an iterator behind the last node.
* `C37_object_array_keys_partial` [pq] (SortReentry.lean): If the key function does not change the list, the key loop reads exactly the list's elements. Missing: key functions that do; the comparisons.
* `C37_object_array_append_uaf` [pq] (SortReentry.lean): The property fails: with a full vector of at least two elements, a key function that appends to the list makes the key loop read freed memory.
* `C37_exact` [pcq] (SortReentryExact.lean): `o.sort(key=…)` on a non-empty list, after any history: there is a number of elements, at least those the list has, such that for all callbacks, whatever they do, answer or raise: if what they did amounts to operations that neither drop the list nor give or promise it more than that number of elements, the sort ends as it does for the elements alone, its result overwriting the front of what the callbacks left in the list; and otherwise it writes into freed memory.
* `C37_threads_exact` [pcq] (SortReentryExact.lean): `o.sort()` without a key runs without the interpreter lock. For every non-empty list, after any history, there is a number of elements, at least those the list has, such that after any interleaving of stores of the sort and operations of other threads: each access of the sort finds its element if what happened amounts to operations that neither drop the list nor give or promise it more than that number of elements, and is otherwise a use after free.
* `C37_int_linked_exact` [pcq] (SortReentryExact.lean): `IntLinkedList.sort(key=…)`, for all callbacks: undefined behaviour exactly if the callbacks leave the list shorter than it was at the start; otherwise the sorted elements overwrite the front of what they left.
* `C37_object_linked_exact` [pcq] (SortReentryExact.lean): `ObjectLinkedList.sort(…)`, with or without a key function, for all callbacks: the same. Reference counts are not part of this.
* `C37_object_array_keys_exact` [pcq] (SortReentryExact.lean): The key loop of `ObjectArrayList.sort(key=…)` is defined exactly if, before each call of the key function, the list still is in the allocation it was in at the start and still has the element to be passed; otherwise it is a use after free.

### C38 SIMD.memcpyX copies exactly count elements

*Claim.* SIMD.memcpy<Type>(from, to, count) and the Aligned variants on aligned addresses make the destination's first count elements equal to the source's and change no other byte, for every count, element size and CPU.

*Plan.* Byte/element model of block loops; exact copy and frame for all flags.

*Status: proved.* Exact copy and frame for every count, size and flag combination; faults of the aligned variant characterised.

* `C38_memcpy_exact` [pcq] (SimdCopy.lean): C38, unaligned functions: for every CPU, element size (a divisor of 16 bytes covers every exported type), addresses, contents and count, the copy succeeds and changes exactly the `count` destination elements.
* `C38_memcpyAligned_exact` [pcq] (SimdCopy.lean): C38, aligned functions on 64-byte aligned addresses.
* `C38_memcpyAligned_dichotomy` [pcq] (SimdCopy.lean): C38, exact fault condition of the aligned functions when only the source is 64-byte aligned: either the copy is exact or it faults, and it faults exactly when `CopyAligned` fails.
* `C38_fastMemcpy_exact` [pcq] (SimdCopy.lean): `fast_memcpy`, used by the object lists: exact for every size, address and CPU.

### C39 SIMD.reverseX reverses elements of every width

*Claim.* SIMD.reverse<Type>(ptr, count) leaves the count elements at ptr in opposite order with each element's bytes intact, for every element width and CPU.

*Plan.* Lane permutations of each register shuffle modelled; proof for 1,2,4,8; negation + partial for 16.

*Status: partial.* Widths 1, 2, 4, 8 in full. Width 16 exactly (iff): reversed precisely when the elements that the AVX2 loop exchanges consist of two equal halves; violated otherwise.

* `C39_reverse_partial` [pcq] (SimdReverse.lean): C39 for the element widths 1, 2, 4 and 8 (and every width without a specialisation): all CPUs, counts and contents. Missing for the full property: width 16, see below.
* `C39_reverse16_partial` [pcq] (SimdReverse.lean): C39, width 16 (`reverseLongDouble`): correct whenever the AVX2 loop is not entered.
* `C39_reverse16_negation` [pcq] (SimdReverse.lean): C39 fails for width 16 on every AVX2 machine as soon as the AVX2 loop is entered: for every block in which no element has equal 8-byte halves (here: all bytes distinct), the result is not the reversal.
* `C39_reverse16_exact` [pcq] (SimdReverse.lean): C39, width 16, exactly: the elements that the AVX2 loop exchanges (those the AVX-512 loop has left, in pairs, at both ends) have to consist of two equal halves.

### C40 A reported SIMD feature can be used

*Claim.* If SIMD.isAVX512Supported() / isAVX2Supported() / isSSE41Supported() reports true, then the instructions the library executes on that path are supported by the CPU and enabled by the operating system.

*Plan.* CPUID bits as inputs; negation for AVX-512, proof for AVX2/SSE4.1.

*Status: partial.* SSE and AVX2 flags exact (CPU and operating system); negations: the AVX-512 flags ignore whether the operating system saves ZMM state, and the 512-bit reversal path needs AVX512BW but only checks AVX512F.

* `C40_reported_exactly` [pq] (Cpu.lean): C40. `isAVX2Supported()`, `isSSE41Supported()` and `isSSSE3Supported()` (GCC and Clang on Linux) report true exactly on the machines where the extension can be used: never a fault, never a needless fallback.
* `C40_guarded_paths_partial` [pq] (Cpu.lean): C40 for every vector path guarded by an SSE or AVX2 flag, and every compiler: the instructions it executes can be used. With MSVC, which does not ask for the largest CPUID leaf, for machines with leaf 7.
* `C40_avx512_partial` [pq] (Cpu.lean): C40 for the AVX-512 paths, on machines whose operating system has enabled the AVX-512 registers (and which have AVX-512BW, for `reverse`): the instructions can be used. Missing: the detection does not check these two conditions.
* `C40_avx512_without_os_support` [pq] (Cpu.lean): C40 is violated. The AVX-512 test is the AVX2 test with another feature bit: it never looks at the AVX-512 register state in XCR0. Every CPU with AVX-512F under an operating system that has enabled only the AVX registers is reported as supporting AVX-512, and all four AVX-512 paths fault there.
* `C40_reverse_needs_avx512bw` [pq] (Cpu.lean): C40 is violated. `reverse` executes AVX-512BW instructions under the AVX-512 flag, which only looks at AVX-512F: on every CPU with AVX-512F but not AVX-512BW (Knights Landing) it faults, whatever the operating system.

### C41 Unsafe.set then Unsafe.get returns the bytes

*Claim.* After Unsafe.set(address, data), Unsafe.get(address, len(data)) returns data, and every byte outside [address, address+len(data)) is unchanged; memcpy between disjoint ranges and memset have the corresponding effect; a call that raises changes nothing.

*Plan.* Byte memory with live blocks.

*Status: proved.* Every memory, address, size and byte string; overlapping memcpy is undefined (C contract).

* `C41_set_get` [pcq] (Unsafe.lean): C41. `set(p, data)` into a live block succeeds, a following `get(p, len(data))` returns `data`, no block is created or freed, and no byte outside the range changes. For every memory, address and byte string (a bytes object has at most `PY_SSIZE_T_MAX - 33` bytes).
* `C41_memcpy` [pcq] (Unsafe.lean): C41. `memcpy(src, dst, n)` between disjoint live ranges copies the bytes and changes nothing else.
* `C41_memset` [pcq] (Unsafe.lean): C41. `memset(p, v, n)` on a live range sets every byte to `v` modulo 256 (`v` a C int) and changes nothing else.
* `C41_raise_unchanged` [p] (Unsafe.lean): C41. A call of `get`, `set`, `memcpy` or `memset` that raises leaves the memory as it was.
* `C41_memcpy_overlap_undefined` [pcq] (Unsafe.lean): C41. `memcpy` between overlapping live ranges is undefined: the restriction to disjoint ranges is needed.

### C42 Unsafe allocation calls match the C contract

*Claim.* malloc/calloc/realloc return the address of a live block of the requested size or raise MemoryError; calloc's block is zero, realloc keeps the common prefix; an address from one malloc is freed exactly once; for size 0 no error is reported for a success.

*Plan.* Allocator contract as parameter; history invariant; negation for realloc to 0.

*Status: partial.* Every history inside the C contract refines a store of separate blocks; negations: realloc(p, 0) frees and reports failure, sizes from 2^64 on wrap to smaller blocks.

* `C42_history_partial` [pcq] (Unsafe.lean): C42, for histories in which client and allocator keep the rules of C, all sizes and addresses are below 2^64 and `realloc` is not asked for size 0: every call does what the block store specifies. `malloc`, `calloc`, `realloc` and `aligned_malloc` return the address of a live block of the requested size or raise MemoryError and change nothing, `calloc`'s block is zero, `realloc` keeps the common prefix, other blocks keep their contents, `free` removes exactly one block. Missing: size 0 in `realloc` and sizes from 2^64 on, where the code deviates (below).
* `C42_realloc_zero_reports_failure` [pcq] (Unsafe.lean): C42 is violated. With glibc, `realloc(p, 0)` frees the block and then raises MemoryError as if it had failed; the caller, who must think that `p` is still allocated, frees it: undefined behaviour.
* `C42_huge_size_wraps` [pcq] (Unsafe.lean): C42 is violated. A size from 2^64 on is taken modulo 2^64: `calloc(v, 1)`, `aligned_malloc(v, a)` and `realloc(0, v)` return the address of a block that is smaller than requested.
* `C42_free_once` [pcq] (Unsafe.lean): C42. A freed address is no longer allocated: freeing it again before it is allocated anew is undefined, nothing detects it.

### C43 as_object(get_address(x)) gives back x safely

*Claim.* Unsafe.as_object(Unsafe.get_address(x)) is x and leaves the reference count balanced, so x lives as long as some name refers to it.

*Plan.* Reference-count ledger; negation + partial.

*Status: partial.* Identity holds; negation: each as_object steals a reference, after enough rounds a named object is freed; safe when the client adds references by hand. Exact (iff): the histories in which every named object stays alive at every moment.

* `C43_exact` [pcq] (NamesExact.lean): C43, exactly: in a history every object the client has a name for is alive at every moment (and so no event touches a freed object) if and only if at every moment, for each such object that is not immortal, the names made since the start, the references there were, and the references added by hand less the names made by `as_object` leave at least one.
* `C43_identity` [pcq] (Unsafe.lean): C43, identity: `as_object(get_address(x))` is `x`, for every live object.
* `C43_loses_references` [pcq] (Unsafe.lean): C43 is violated. `as_object` returns a borrowed reference as if it were a new one: each `as_object(get_address(x))` whose result is dropped again takes a reference away from the names that remain. After as many rounds as there are names, the object is freed although every name is still there, and the next use of one is a use after free.
* `C43_careful_partial` [pcq] (Unsafe.lean): C43 with the client's help: if, for each object that is not immortal, the references the client adds by hand with `incref` cover the names made by `as_object` at every moment, then in every history no freed object is touched and every object the client has a name for is alive at the end. Missing: the balance without `incref` (violated, see `C43_loses_references`).
* `C43_not_an_address` [pq] (Unsafe.lean): C43. An address that is null or not an integer raises.

### C44 setAVX vectors store the arguments in intrinsic order

*Claim.* SIMD.setAVX512Vector32/16/8 and setAVX2Vector32/16/8 store lane i of the vector = the i-th last value argument, for every value, or raise and store nothing when an argument is not a representable integer.

*Plan.* Lane order model; conversions per interpreter version; negation + partial.

*Status: partial.* Every lane exact for values the interpreter's fast path converts; negations: sign lost on 3.12+ (16/8-bit), values of 2^30 and more up to 3.11 (32-bit), no error for unrepresentable values, stores after an error, type confusion for non-ints. Exact (iff): the setters store all arguments without an exception precisely for these values.

* `C44_stores_partial` [pcq] (SimdSet.lean): C44 for values that are representable and, on ≤ 3.11, below 2^30 in magnitude (32-bit lanes), on 3.12+, not negative (16- and 8-bit lanes): all six setters store lane `i` = the `i`-th last value, change no byte outside the vector, and return None. Missing: the other values (negations below).
* `C44_wrong_count` [p] (SimdSet.lean): C44. A wrong number of arguments raises TypeError and stores nothing.
* `C44_small_lanes_lose_sign` [pcq] (SimdSet.lean): C44 is violated on 3.12+: the 16- and 8-bit setters store the absolute value of every negative argument but the smallest.
* `C44_small_lanes_never_raise` [pcq] (SimdSet.lean): C44 is violated: the 16- and 8-bit setters never raise for an unrepresentable integer; on every version, with every tuple of integers, they store a vector and return None.
* `C44_first_digit_only` [pcq] (SimdSet.lean): C44 is violated on ≤ 3.11: the 32-bit setters store another value, without an exception, for every argument of magnitude 2^30 or more.
* `C44_overflow_stores` [pcq] (SimdSet.lean): C44 is violated on 3.12+: an argument that is not a C int does not stop the 32-bit setters. The vector is stored, with -1 in that lane, and None is returned with the exception pending.
* `C44_type_confusion` [pq] (SimdSet.lean): C44 is violated: an argument that is not an `int` object is read as one (type confusion) by the 16- and 8-bit setters on every version and by the 32-bit ones on ≤ 3.11.
* `C44_exact` [pcq] (SimdSet.lean): C44, exactly: given a block the vector fits in and `int` objects, a setter stores every argument in its lane and returns None with no exception pending precisely when every argument is representable in its lane and, in addition, has magnitude below 2^30 (32-bit lanes on CPython ≤ 3.11) or is not negative unless it is the smallest value (16- and 8-bit lanes on 3.12+).

### C45 ASM function registry never blocks

*Claim.* In every history of makeFunction and freeFunction calls, with known or unknown addresses, every call returns or raises; the registry lock is free between calls.

*Plan.* Lock state machine; negation + partial.

*Status: partial.* proved for histories that free only existing functions and with VirtualProtect succeeding: every call answers as specified and the lock is free after each. Negations: an unknown address or a failing VirtualProtect keeps the lock so that every later call hangs; freeFunctionFast leaves an entry that makes a later free invalid Exact (iff): the histories in which every call answers as specified.

* `C45_history_partial` [pcq] (Asm.lean): C45 for the histories that free only functions that exist, with `VirtualProtect` succeeding in `freeFunction`: every call answers exactly as specified (no call hangs, none frees something that is not a live function), and the lock is free after every call. Missing: `freeFunction` with an unknown address or a failing `VirtualProtect`, `freeFunctionFast` with an unknown address (negations below). `others` are the blocks allocated by the rest of the process.
* `C45_history_exact` [pcq] (Asm.lean): C45, exactly: with an allocator that gives out new addresses, all calls of a history answer as specified and leave the lock free if and only if `freeFunction` and `freeFunctionFast` are only used on functions that exist, and `VirtualProtect` succeeds in every `freeFunction`.
* `C45_unknown_address_blocks` [pq] (Asm.lean): C45 is violated: freeing an unknown address (or a non-address) raises ValueError and keeps the lock. From then on every `freeFunction`, and every `makeFunction` whose allocation succeeds, hangs.
* `C45_protect_failure_blocks` [pq] (Asm.lean): C45 is violated: when `VirtualProtect` fails in `freeFunction` of an existing function, OSError is raised, the lock is kept, and the next `freeFunction` hangs.
* `C45_ghost_entry` [pcq] (Asm.lean): C45 is violated: a failing `freeFunctionFast` of an address that is no function registers it; a following `freeFunction` of that address finds it and frees memory that was never allocated.

### C46 The hash table is a finite map

*Claim.* Any history of insertions, lookups and erasures on the hash map used for the function registry and IntIntHashMap behaves as a finite map: a lookup returns the last value stored for the key if it was not erased since.

*Plan.* Model of the robin-hood table; refinement to a finite map by invariant.

*Status: partial.* Every history on the table of UnorderedDense.h (emplace, try_emplace, map[k]=v, at, contains, erase, size, clear, copy), any hash function, any keys, as long as there are never more than 2^24-2 entries at a time, gives the answers of a finite map and is free of undefined behaviour. Missing: larger tables, where the 24-bit distance field of a bucket can wrap around if all keys collide.

* `C46_partial` [pcq] (HashMap.lean): Whatever the hash function, and whatever is inserted, assigned, looked up, erased, cleared and copied: as long as there are never more than 2^24 - 2 entries, every answer is that of a finite map, and nothing is undefined.
* `C46_short_partial` [pcq] (HashMap.lean): In particular every history of at most 2^24 - 2 operations.
* `C46_last_stored_partial` [pcq] (HashMap.lean): A lookup returns the last value assigned, if the key was not erased since.

### C47 resize(n) keeps the prefix and pads with zeros

*Claim.* After l.resize(n), n >= 0, len(l) == n, the first min(n, old length) elements are the old ones and all further ones are 0; for negative or unrepresentable n a ValueError is raised and nothing changes.

*Plan.* Refinement.

*Status: proved.* resize for every argument object.

* `C47_resize` [pq] (ArrayListHistory.lean): C47: resize keeps the prefix, pads with zeros, rejects negative and unrepresentable sizes.

### C48 Conversions used by key sorting and SIMD setters preserve values

*Claim.* Converting a Python int to a C int / short / char in the library's fast paths yields its value whenever it is representable, on every supported interpreter.

*Plan.* Digit-level conversion model; negation + partial.

*Status: partial.* Each helper exactly (iff): the values that come through unchanged, per interpreter version; negations for the others.

* `C48_asInt_312` [pq] (IntValues.lean): C48 for `PyFast_AsInt` on 3.12+: the value whenever it is a C int, else OverflowError.
* `C48_asInt_311_partial` [pcq] (IntValues.lean): C48 for `PyFast_AsInt` on ≤ 3.11, magnitudes below 2^30.
* `C48_asInt_negation` [pcq] (IntValues.lean): C48 fails for `PyFast_AsInt` on ≤ 3.11: every C int of magnitude 2^30 or more is converted to another value, without an exception.
* `C48_asSmall_311` [pcq] (IntValues.lean): C48 for `PyFast_AsShort` / `PyFast_AsChar` on ≤ 3.11 (every representable value).
* `C48_asSmall_312_partial` [pq] (IntValues.lean): C48 for `PyFast_AsShort` / `PyFast_AsChar` on 3.12+, non-negative values.
* `C48_asSmall_negation` [pcq] (IntValues.lean): C48 fails for `PyFast_AsShort` / `PyFast_AsChar` on 3.12+: every negative value but the smallest loses its sign.
* `C48_asInt_exact` [pcq] (IntValuesExact.lean): C48, `PyFast_AsInt`, exactly: an int comes through without an exception precisely if its magnitude is below 2^30 (up to 3.11), or it is a C int (from 3.12 on).
* `C48_asSmall_exact` [pcq] (IntValuesExact.lean): C48, `PyFast_AsShort` and `PyFast_AsChar`, exactly: an int comes through unchanged precisely if it is a value of the C type and, from 3.12 on, not negative or the smallest value. (No exception is ever set.)

### C49 Constructing a list from an iterable gives its elements

*Claim.* IntArrayList(it), BigIntArrayList(it), IntLinkedList(it) contain exactly the integers of it in order for every iterable of representable integers; if an element is not convertible an exception is raised.

*Plan.* Constructor dispatch and loops.

*Status: partial.* Constructor exact for element-range items; negation for truncation. Exact (iff): the iterables whose elements the constructors store, and those at which they raise. Exact (iff) for IntLinkedList as well.

* `C49_init_exact` [pcq] (InitExact.lean): C49, exactly: the constructor on an iterable (not a list of its own class, which is copied) yields the items given if and only if each is an integer of the element type.
* `C49_raises_exact` [pcq] (InitExact.lean): C49, exactly: the constructor raises if and only if an item is no integer of the machine word, and then the exception is RuntimeError. So the integers beyond the element type but within 64 bits are accepted and stored as other values (`C49_init_exact`).
* `C49_init` [pcq] (IntValues.lean): C49 (array lists): the constructor on an iterable of values of the element type yields exactly these; on a list of the same class its elements.
* `C49_init_refused` [pcq] (IntValues.lean): C49: an object that is no integer, or an integer beyond 64 bits, anywhere in the iterable makes the constructor raise RuntimeError (if it is the first failure).
* `C49_truncation_negation` [pcq] (IntValues.lean): C49 / C02: the IntArrayList constructor stores every integer that fits 64 but not 32 bits as another value.
* `C49_linked_init_exact` [pcq] (LinkedKept.lean): C49 for IntLinkedList, exactly: the constructor on an iterable (not a list of its own class, which is copied) yields the items given if and only if each is an integer of the element type.
* `C49_linked_raises_exact` [pcq] (LinkedKept.lean): C49 for IntLinkedList, exactly: the constructor raises if and only if an item is no integer of the machine word, and then the exception is RuntimeError.
* `C49_linked_init` [pcq] (LinkedMisc.lean): C49: the constructor applied to an iterable of good elements holds exactly them.
* `C49_linked_init_refused` [pcq] (LinkedMisc.lean): … and anything that is not an iterable of integers is refused with an exception.

### C50 Thread pool runs each submitted task

*Claim.* Every task submitted to the scheduled thread pool before shutdown is executed exactly once and its captured state is valid when it runs.

*Plan.* Queue/worker state machine; negation + partial.

*Status: partial.* proved for every schedule and number of workers: FIFO, at most once, never two at a time, no lost wake-up, bounded number of moves, everything started when the pool comes to rest, and no undefined behaviour if calls return after their task ended. Negations: the task refers to a local of submit, so a task started after submit returned is undefined behaviour (the ordinary course); shutdown drops queued tasks; a task that submits deadlocks the pool  C50_valid_exact: a schedule has no undefined behaviour exactly if each submit in it returns while its task is not running and only after the task was started, unless the task is never started in that schedule.

* `C50_at_most_once` [pq] (Pool.lean): Tasks are started in the order they were handed over, each at most once.
* `C50_one_at_a_time` [pq] (Pool.lean): Tasks never overlap: the mutex is held while one runs.
* `C50_bounded` [pcq] (Pool.lean): A schedule is finite when the calls, spurious wake-ups and shutdowns in it are: nobody can spin.
* `C50_all_started_partial` [pcq] (Pool.lean): No task is forgotten: when a pool with at least one worker, not shut down, and whose tasks do not call back into it, comes to rest, every task handed over has been started, in order and exactly once. Missing from the property: that the started task finds its captured state (`C50_valid_partial`), and tasks outstanding at shutdown (`C50_shutdown_drops`).
* `C50_no_lost_wakeup` [pq] (Pool.lean): While a task is queued, some worker is awake: a wake-up is never lost.
* `C50_valid_partial` [pq] (Pool.lean): Running a task is defined if every `submit` happens to return only after its task has ended. Missing from the property: `submit` itself does nothing to make that so (`C50_dangling`).
* `C50_dangling` [pq] (Pool.lean): The property fails: a task not started when its `submit` returns can only be started with undefined behaviour.
* `C50_dangling_ordinary` [pq] (Pool.lean): The ordinary course of events, in a pool of any size: one task is submitted, the call returns, a worker starts it.
* `C50_shutdown_drops` [pq] (Pool.lean): The property fails: a task queued when the pool shuts down is never started.
* `C50_nested_submit_deadlock` [pq] (Pool.lean): The property fails: after a task has called `submit` itself, no task is ever started again.
* `C50_valid_exact` [pq] (PoolExact.lean): A schedule has no undefined behaviour exactly if each call of `submit` in it returns while its task is not running, and returns after its task was started, unless the task is not started in the schedule at all.

### C51 AVX-512 bindings call the documented intrinsic

*Claim.* Every method of SIMDLowAVX512 calls the C intrinsic named in its documentation with the values its arguments stand for (vectors and masks by address, numbers and pointers by value), in the documented order, stores the result at __result and changes nothing else; a wrong number of arguments raises TypeError; the methods marked as unsupported, and only they, raise NotImplementedError.

*Plan.* Extract the three tables of the generated C++ file and the table of the stub file; give the one shape of the functions a meaning (conversions, memory, intrinsics as a parameter); check the tables row by row in the kernel, and prove the property generically for a row that agrees with its stub.

*Status: partial.* All 1383 rows of the method table, wrappers and implementations are in the model and agree with the stub file. Proved for methods without pointer parameters and exactly converted integers; wrong counts, unsupported methods and the frame in general. The code violates the property: pointer parameters are dereferenced once too often (84 methods), float parameters are annotated int but an int is read as a float object, 25 methods not marked as unsupported raise NotImplementedError (GCC/Clang), the sign of char/short is lost on 3.12+, int is cut to 30 bits up to 3.11, out-of-range integers leave an exception pending after the store, unsigned int is cut to 32 bits silently, and the example in the class comment names a method that does not exist.

* `C51_partial` [pcq] (LowAVX512.lean): C51 for methods without pointer parameters whose intrinsic needs no compile-time constant, and integer arguments that are converted exactly: whenever the documentation gives the call an effect, the call has that effect and returns None. Missing: pointer parameters, constants, some integers (negations below).
* `C51_indirect_partial` [pcq] (LowAVX512.lean): C51 for all supported methods, pointer parameters included, if a pointer is passed as the address of a cell that holds it (not documented).
* `C51_values_negation` [pcq] (LowAVX512.lean): C51 is violated by every supported method with a pointer parameter, on 3.12+ by every one with a `char` or `short` parameter, and on ≤ 3.11 by every one with an `int` parameter: for some arguments the documented effect is defined, but the intrinsic is called with other values (here: outside its domain).
* `C51_load_negation` [pcq] (LowAVX512.lean): A pointer parameter, in general: the intrinsic is called with the eight bytes found at the address.
* `C51_float_negation` [pcq] (LowAVX512.lean): C51 is violated by every method with a `float` or `double` parameter: the stub annotates it as `int`, but an `int` object (or any object that is no `float`) is read as if it were a float, whatever the other arguments.
* `C51_raises` [pcq] (LowAVX512.lean): C51. A method marked `RaisesNotImplementedError` raises it for all arguments, and nothing happens.
* `C51_wrong_count` [pcq] (LowAVX512.lean): C51. Every other method called with a wrong number of arguments raises TypeError, and nothing happens.
* `C51_constant_negation` [pcq] (LowAVX512.lean): C51 is violated by the methods whose intrinsic needs a constant although the stub does not mark them: called with the right number of arguments they raise NotImplementedError (GCC and Clang).
* `C51_names` [pcq] (LowAVX512.lean): C51. The class has exactly the documented methods.
* `C51_example_negation` [p] (LowAVX512.lean): The example in the class comment calls a method that does not exist.
* `C51_only_result` [pcq] (LowAVX512.lean): C51. If the intrinsic only computes (leaves memory alone and returns a value of the type of the prototype), then a call changes at most the bytes of the result at `__result`, whatever the arguments and whether or not an exception is pending.
* `C51_overflow_negation` [pcq] (LowAVX512.lean): C51 is violated: an argument outside the range of its type does not stop the call. `mm512_set1_epi64(p, v)` with `v` outside 64 bits calls the intrinsic with -1, stores its result, and returns None with OverflowError pending (the interpreter answers with SystemError).
* `C51_reports` [pcq] (LowAVX512.lean): C51. A call that returns without an exception was given 64-bit integers in range: signed for `long long`, unsigned for `unsigned long long` and `unsigned int`.
* `C51_wraps_negation` [pcq] (LowAVX512.lean): C51 is violated: a number of 33 to 64 bits given for an `unsigned int` is cut to 32 bits without an exception.

### C52 Sorting compares with Python's <

*Claim.* The object sort, which inspects the keys first and then uses a comparison specialised to them, orders them exactly as Python's < does: same answers, same exceptions, same side effects, for keys of any types, mixed or not, tuples and tuples of tuples included; a specialised comparison is never applied to objects it is not made for, even if classes change during the sort. In particular ints are sorted by value, strings by code points, floats by size, tuples of ints lexicographically.

*Plan.* Describe the interpreter (types, comparison slots, reflected operands, tuples, ints as digits) as its own vocabulary with user classes as a parameter; model the check and the five comparisons with wrong-type access as an outcome; prove that a chosen comparison is `<` on all keys that were checked, lift it through the sort by tagging elements with membership.

*Status: proved.* Every list of ints, strs, floats, tuples (nested) and instances of user classes; user-defined comparisons are a parameter, assumed to keep the classes of the keys and to answer NotImplemented without effects (such a method is asked twice) for the agreement with `<`; that no comparison is applied to the wrong type needs no assumption. Subclasses of int, str, float and tuple are user classes.

* `C52_is_less` [pcq] (KeyCompare.lean): Whatever the keys are, the comparison picked for them does exactly what `<` does: same answer, same exception, same effects. The classes of the keys must not change meanwhile, and `NotImplemented` must be answered without effects (such a method is asked twice).
* `C52_defined` [pq] (KeyCompare.lean): In every interpreter, also one in which classes and their methods change during the sort, the picked comparison is never applied to objects it is not made for.
* `C52_sort_safe` [pcq] (KeyCompare.lean): In every interpreter `sort()` ends with a permutation of the list, without undefined behaviour; an exception is one a comparison raised, or MemoryError.
* `C52_by_key_safe` [pcq] (KeyCompare.lean): The same with a key function, for every interpreter and key function: a permutation of the list, no undefined behaviour; an exception is one the key function or a comparison raised, or MemoryError.
* `C52_key_raises` [pq] (KeyCompare.lean): The key function is asked for every element, in order, before anything is compared; if it raises, the list stays as it is.
* `C52_no_exception_lost` [pcq] (KeyCompare.lean): `sort()` succeeds only if every comparison it made answered and every allocation was granted: no exception of a comparison is lost.
* `C52_sorts` [pcq] (KeyCompare.lean): If `<` is a strict weak order on the elements, `sort()` sorts by it, stably.
* `C52_sorts_by_key` [pcq] (KeyCompare.lean): The same with a key function without side conditions on the keys but those of `<`.
* `C52_ints` [pcq] (KeyCompare.lean): Ints are sorted by value, however large.
* `C52_strings` [pcq] (KeyCompare.lean): Strings are sorted by code points, narrow and wide ones alike.
* `C52_floats` [pcq] (KeyCompare.lean): Floats without NaN are sorted by size.
* `C52_tuples` [pcq] (KeyCompare.lean): Tuples of ints are sorted lexicographically.
* `C52_by_key` [pcq] (KeyCompare.lean): With a key function: elements are sorted by the ints, strings, floats or tuples of ints their keys are. The key function may have effects; it must give the same key whenever it is asked.

### C53 A request the machine cannot meet raises and leaves the list as it was

*Claim.* When a call of an IntArrayList, BigIntArrayList or IntLinkedList needs more memory than the machine gives it, or more elements than the container can have, it raises an exception and the list has the elements it had before; when the memory is granted, the call does what it does with unlimited memory. It never ends the process.

*Plan.* Model the storage of the vector (elements, capacity) on a machine given as a function that grants or refuses each request; C++ exceptions are caught where the code has a handler, and end the process where it has none or where the handler runs without the interpreter lock. Prove each call equal to the unlimited model when requests are granted, and `Bounded` by it otherwise; negations for the calls without handler. For IntLinkedList a machine grants or refuses each node: lift the unlimited model where only the first request can be refused, follow the loops node by node elsewhere; histories by induction.

*Status: partial.* Proved for append, insert, resize, copy and construction, for every machine; every call equals the unlimited model on a machine that grants twice the room the call needs. Violated: extend and += with a refused or absurd size end the process (no handler), * and *= raise std::bad_alloc or length_error with the interpreter lock released, slice assignment has changed elements before it raises (negations). IntLinkedList (C53_linked_*): refused nodes at append, insert, copy, `*` and construction leave the list as it was, for every history; every call equals the unlimited model when enough nodes are granted; violated: extend and += end the process, *= keeps the rounds it finished, slice assignment keeps what it wrote (negations). Not covered: from_range of the array lists, a `__length_hint__` that raises (object lists: C60).  C53_from_range: from_range of array lists, exactly. from_range of IntLinkedList exactly: C53_linked_range, C53_linked_range_any.

* `C53_enough` [pq] (Limits.lean): Within what the machine grants — twice the elements the call needs room for, because a vector doubles its storage — every call does what it does with unlimited memory. This is what connects the theorems about the unlimited model with real machines.
* `C53_refused` [pq] (Limits.lean): The calls that catch the failure: for every machine, `append`, `insert`, `resize` and `copy` do what they do with unlimited memory, or raise RuntimeError and the elements are the old ones.
* `C53_resize_huge` [pq] (Limits.lean): A size no vector can have is refused by every machine, however much memory it has.
* `C53_create` [pq] (Limits.lean): The constructor: what it does with unlimited memory, or RuntimeError (there is no list then), whatever size was asked for.
* `C53_from_range` [pcq] (Limits.lean): `from_range`, exactly: arguments that are refused are refused in the same way; where it gives the list `l` with unlimited memory (C09), it asks for room for as many elements once, unless there are none, and gives the same list, or RuntimeError if that is more than a vector can have or is not granted.
* `C53_slice_partial` [pq] (Limits.lean): Assigning to a slice: what it does with unlimited memory, or RuntimeError.
* `C53_slice_negation` [pq] (Limits.lean): But after the exception the list is not what it was: the elements placed before the refusal stay.
* `C53_extend_negation` [pq] (Limits.lean): `extend` and `+=` do not catch the failure. An iterator that announces more items than a vector can hold (`itertools.repeat(1, 2**62)`, any `__length_hint__`) ends the process, on every machine and before the first item.
* `C53_extend_refusal_negation` [pq] (Limits.lean): The same with an ordinary list as operand, when the machine refuses the block.
* `C53_mul_negation` [pcq] (Limits.lean): `*` neither delivers nor refuses a product of more elements than a vector can have: every machine runs into undefined behaviour. The number of bytes is computed modulo 2^64; if it is still too large the exception handler runs without the interpreter lock, otherwise the copies are written outside the block.
* `C53_mul_refusal_negation` [pq] (Limits.lean): And a product the machine has no block for: the handler runs without the interpreter lock.
* `C53_storage` [pcq] (Limits.lean): Through all of this the storage of a list stays sound: from the constructor on, through every history of calls, on every machine, the elements are within the block and the block within the address space. So nothing that is refused is half done at the level of memory.
* `C53_linked_partial` [p] (RefuseInt.lean): Outside `extend`, `+=`, `*=` and assignment to a slice: on every machine and in every state, a call does what it does with unlimited memory, or it raises RuntimeError and the list is unchanged, nodes and modification counter included. The full claim, for all calls, is false of the code: `C53_linked_extend_negation`, `C53_linked_imul_negation`, `C53_linked_slice_negation`.
* `C53_linked_history_partial` [p] (RefuseInt.lean): Histories: after any number of such calls on any machine, the list is the one that the calls which were not refused lead to with unlimited memory.
* `C53_linked_enough` [pq] (RefuseInt.lean): A machine that grants the next `nodesFor` requests — one for `append`, one for each item of `extend`, one for each element of the product — lets every call, refused or not elsewhere, do what it does with unlimited memory.
* `C53_linked_mul_exact` [pq] (RefuseInt.lean): The bound is exact for `*`: one node fewer and it raises.
* `C53_linked_create` [-] (RefuseInt.lean): The constructor: what it does with unlimited memory, or RuntimeError (there is no list then).
* `C53_linked_create_enough` [pq] (RefuseInt.lean): With a node for each item it is the former.
* `C53_linked_range` [pq] (RefuseInt.lean): `from_range`, where it would succeed with unlimited memory: it succeeds with the same elements if every node is granted, and raises RuntimeError at the first that is not.
* `C53_linked_range_any` [pq] (RefuseInt.lean): `from_range` in general: what it does with unlimited memory, or RuntimeError at a node that was refused; the latter can come before an overflow that ends the process with more memory.
* `C53_linked_extend_negation` [pq] (RefuseInt.lean): `extend` and `+=` end the process when the machine refuses a node: for every list, every IntLinkedList as operand and whichever node is refused.
* `C53_linked_extend_items_negation` [pq] (RefuseInt.lean): With a Python list of ints: the items before the first that cannot be converted each need a node, and so does that item, because it is stored before its error is noticed; any of these nodes refused ends the process.
* `C53_linked_imul_negation` [pq] (RefuseInt.lean): `l *= n` keeps the rounds it had done before a refusal, and each round doubles the list: refused in round `j + 1`, a list is left with `2 ^ j` copies of itself, and RuntimeError.
* `C53_linked_slice_negation` [p] (RefuseInt.lean): Assignment to a slice has overwritten and inserted elements when the refusal comes: `l[0:1] = [7, 8, 9]`.

### C54 Lists live as long as they are referenced and give everything back once

*Claim.* A list, and every object in it, stays valid as long as Python code or another living list refers to it; a call returns and leaves the elements a Python list would have, whatever was created, initialised, copied, nested and dropped before; once nothing refers to an object it is destroyed and its storage is returned, exactly once, so that nothing is left when the last reference is gone.

*Plan.* Model objects, reference counts, containers (zeroed or constructed), blocks of the allocator and the C stack of nested destructors; invariant: every count is the number of names and elements that refer to the object, blocks are the sum over living objects; prove it over all histories, with what a second `__init__` loses as an existential remainder; reachability from the counts by a rank argument when no list contains itself.

*Status: partial.* Over all histories: no use after free, contents and exceptions as for Python lists, and, without repeated `__init__` and without cycles, living objects are exactly the reachable ones and storage is exactly theirs. Violated (negations): a repeated `__init__` loses storage and references; a linked list made by `__new__` only crashes on any use and on release; a list that contains itself is never collected; destruction recurses without bound; construction from a list of the same class does not count references. Objects with finalisers, subclasses and the other methods are not in this model. C54_reclaimed_exact: what stays behind is exactly the references and the storage that objects had when they were initialised again, and what those references lead to; nothing is left at the end exactly if there were none. C54_no_crash_depth_partial: the stack must have room for the depth to which lists are nested, not for the length of the history. C54_depth_exact: n + 1 lists, each in the next, crash when dropped exactly if they are more than the frames of the stack.

* `C54_alive_partial` [pcq] (Life.lean): **C54 (references lead to objects).** Whatever the history, as long as no list of objects is constructed from another list of its own class (`C54_same_class_negation`): nothing that was destroyed is ever touched, every object Python code has a reference to lives, and so does every element of a list that lives.
* `C54_no_crash_partial` [pcq] (Life.lean): **C54 (no crash).** If moreover linked lists are not left uninitialised (`C54_uninitialised_negation`) and the stack has room for one frame per event (`C54_depth_negation`), every event of the history returns.
* `C54_contents_partial` [pcq] (Life.lean): **C54 (contents).** After any such history, an event returns what the same event on Python lists returns and leaves every list with the elements Python lists would have; it raises exactly when it should, and then nothing has changed, unless an `__init__` stopped half way, which leaves what it had taken.
* `C54_reclaimed_partial` [pcq] (Life.lean): **C54 (everything is given back).** If no object is initialised twice (`C54_reinit_negation`) and no list contains itself (`C54_cycle_negation`), then after any such history exactly the objects that can be reached are there, and exactly the storage they own is allocated: nothing is freed early, nothing stays behind. When Python code has dropped its last reference, nothing is left.
* `C54_reinit_negation` [p] (Life.lean): Initialising a list that has been initialised (`l.__init__(...)`) loses its storage, and the references in it, in every class: Python code drops everything and something stays.
* `C54_uninitialised_negation` [p] (Life.lean): A linked list that was made by `__new__` only is a trap: dropping it, appending to it, clearing, copying it or popping from it reads address 0.
* `C54_cycle_negation` [p] (Life.lean): A list that contains itself is never destroyed: the types do not support the cycle collector.
* `C54_same_class_negation` [pq] (Life.lean): A list of objects that is constructed from one of its own class does not count the references it takes: the object that Python code still has is destroyed, and the next use of it is a use after free.
* `C54_depth_negation` [pcq] (Life.lean): The destruction of nested lists is not bounded (Python bounds it with its trashcan): however large the stack, a list of lists that is nested deeply enough, built without any of the things above, crashes the process when it is dropped.
* `C54_reclaimed_exact` [pcq] (LifeExact.lean): **C54 (what stays behind, exactly).** After any history in which no list of objects is constructed from another list of its own class and at whose end no list contains itself: the objects that are there are those to which a reference leads, either of Python code or one that an object had when it was initialised again; the storage allocated is that of these objects and the one that objects had when they were initialised again. When Python code has dropped its last reference, nothing is left exactly if every object that was initialised again had neither references nor storage then.
* `C54_no_crash_depth_partial` [pcq] (LifeExact.lean): **C54 (no crash, by depth).** However long the history, every event returns if lists are always nested less than `D` deep and the two other causes of a crash are excluded: what the stack must have room for is the depth to which lists are nested, not the number of objects or events.
* `C54_depth_exact` [pcq] (LifeExact.lean): **C54 (depth, exactly).** `n + 1` lists, each in the next, can be built on a stack with room for `D + 1` frames whatever `n` is; dropping them crashes exactly if they are more than the frames.

### C55 Python code that runs inside a call may raise or use the list

*Claim.* When an argument, an iterator or a sequence handed to an int list (IntArrayList, BigIntArrayList, IntLinkedList) is an object of a user class, the methods it defines (__index__, __next__, __len__, __getitem__) may run any Python code, including code that changes the very list or raises: the exception comes out of the call, and otherwise the call does what it would do with plain ints on the list as that code left it. The process does not crash.

*Plan.* Give arguments, iterators and sequences as functions from the elements they find to the elements they leave and an answer or an exception; model each method with its reads of the size and the storage in code order. Prove equality with the plain call on the list that the code left (repeated append for `extend`), by induction over the feed; where the code keeps a size across foreign code, prove safety for code that never shortens the list, and the negation for code that empties it, for every non-empty list. For IntLinkedList iterators are node identities that foreign code may remove: a use after that is a distinct outcome; an invariant (the node at hand is in the list with enough nodes after it) is kept by code that removes none. Then say exactly, for arbitrary code, when item assignment, comparisons and slice assignment leave the list: a relation gives the moments the walk over the items reaches (list, items ahead, for linked lists the node), and the outcome is undefined iff some reached moment is a bad one (induction over the loop).

*Status: partial.* Array lists and IntLinkedList (C55_linked_*). append, remove, count, insert, index with explicit bounds, `l[i]`, `del l[i]`, slices, extend and `+=` behave as expected for arbitrary foreign code. Violated (negations): `l[i] = x`, slice assignment and comparisons read or write outside of a list that foreign code has shortened; `!=` follows a null pointer if `__getitem__` raises; index uses an outdated default for stop. For these, safety is proved for code that never shortens the list, and the result for code that leaves it alone. IntLinkedList also: append returns a result with -1 stored and the exception pending when the argument raises, extend stores -1 before it raises (negations), and the same operations use freed nodes; safety is proved for code that removes no node, results for code that leaves the list alone. Not modelled: finalisers, constructing from a list or tuple whose items change it (object lists: C56).  C55_setitem_exact and C55_linked_setitem_exact say exactly when item assignment leaves the list; C55_eq_exact, C55_ne_exact, C55_order_exact and C55_slice_assignment_exact say so for the comparisons and slice assignments of array lists, C55_linked_eq_exact, C55_linked_ne_exact, C55_linked_order_exact and C55_linked_slice_assignment_exact for those of IntLinkedList.  Raising `__len__` and `__length_hint__` during extend: C68.

* `C55_value_arguments` [pq] (Foreign.lean): `append`, `remove` and `count`, whatever the code of the argument does to the list.
* `C55_index_arguments` [pq] (Foreign.lean): `l[i]` and `del l[i]`.
* `C55_insert` [pq] (Foreign.lean): `insert`: the code of the position runs first; a position beyond 64 bits is refused before the code of the value.
* `C55_index` [pq] (Foreign.lean): `index(x, start, stop)`.
* `C55_slice` [pq] (Foreign.lean): `l[i:j:k]`: the code of the step runs first (a step of zero is refused at once), then start, then stop.
* `C55_extend` [pq] (Foreign.lean): `extend` and `+=` append what the iterator yields, one item after the other, to the list as it is by then, whatever the iterator and the conversions of the items do to it; the items before an exception stay.
* `C55_setitem_partial` [pq] (Foreign.lean): `l[i] = x` stores at the position that `i` had before the code of `x` ran, if the list still has it. Missing: the list may have been shortened (`C55_setitem_negation`).
* `C55_setitem_negation` [pq] (Foreign.lean): A value whose `__index__` empties the list makes `l[i] = x` write outside of it, for every valid index of every list.
* `C55_setitem_exact` [pq] (Foreign.lean): `l[i] = x` for arbitrary code in `i` and `x`, exactly: it writes outside of the list precisely if `i` is the valid position `p` of the list as its code left it, and the code of `x` answers a 64-bit int and leaves the list with no more than `p` elements.
* `C55_index_negation` [pcq] (Foreign.lean): The default of `stop` is out of date: if the code of `start` appends the value, `index(v, start)` does not find it, although the call with the same arguments on the list as it is by then does.
* `C55_slice_assignment_partial` [pcq] (Foreign.lean): Slice assignment of a sequence whose methods never shorten the list stays inside it (whichever order the compiler chose, `early`; if the position is computed first, the conversions must leave the list alone). Missing: code that shortens the list (`C55_slice_assignment_negation`), and sequences whose `__len__` raises.
* `C55_slice_assignment_plain` [pcq] (Foreign.lean): A sequence of ints that leaves the list alone is assigned as a plain sequence is (C07).
* `C55_slice_assignment_negation` [pq] (Foreign.lean): A sequence whose first `__getitem__` empties the list makes `l[:] = v` write outside of it, for every list that is not empty.
* `C55_compare_partial` [pcq] (Foreign.lean): Comparing with a sequence whose methods never shorten the list reads only elements of the list; for `!=` if fetching an item never fails. Missing: code that shortens the list (`C55_compare_negation`), `!=` with a `__getitem__` that raises (`C55_ne_negation`).
* `C55_compare_plain` [pcq] (Foreign.lean): Comparing with a sequence of ints that leaves the list alone is comparing with a plain sequence (C10).
* `C55_compare_negation` [pq] (Foreign.lean): A sequence of the same length whose first `__getitem__` empties the list makes every comparison read outside of it.
* `C55_ne_negation` [p] (Foreign.lean): `l != v` follows a null pointer when `v.__getitem__` raises, for every list that is not empty.
* `C55_eq_exact` [pcq] (ForeignExact.lean): `l == v`: it reads outside of the list exactly if `__len__` answers the number of elements there are by then, and after a number of items that were equal to the elements, fetching the next one leaves the list too short for it.
* `C55_ne_exact` [pcq] (ForeignExact.lean): `l != v`: as for `==`, or it follows a null pointer, exactly if fetching an item raises after a number of items that were equal to the elements.
* `C55_order_exact` [pcq] (ForeignExact.lean): The orderings: the length need not be the same, and an item that cannot be converted counts as -1.
* `C55_slice_assignment_exact` [pcq] (ForeignExact.lean): `l[a:b] = v`, where `s` is the slice: let `start`, `stop` and `n` be its bounds and its number of elements in the list `l1` that the code of its fields left (`unpack` and `adjustIndices` are `PySlice_Unpack` and `PySlice_AdjustIndices` of CPython), and `l2` the list that `__len__` left. The assignment leaves the list exactly if * a conversion leaves the list too short for the item to be stored, or * there are fewer items than the slice has elements, and in the end the list does not reach to the end of the slice, or * there are more, and there is no room where one of the others is to be inserted, or * `__len__` raises (which counts as -1 items), and the slice starts at the front, or it is inverted by more than one, or the list does not reach to its end.
* `C55_linked_value_arguments` [pq] (ForeignLinked.lean): `remove` and `count`, whatever the code of the argument does to the list.
* `C55_linked_index_arguments` [p] (ForeignLinked.lean): `l[i]` and `del l[i]`.
* `C55_linked_insert` [p] (ForeignLinked.lean): `insert`: the code of the position runs first; a position beyond 64 bits is refused before the code of the value.
* `C55_linked_index` [p] (ForeignLinked.lean): `index(x, start, stop)`.
* `C55_linked_slice` [pq] (ForeignLinked.lean): `l[i:j:k]`: the code of the step runs first (a step of zero is refused at once), then start, then stop.
* `C55_linked_append_partial` [p] (ForeignLinked.lean): `append` when the code answers. Missing: when it raises (`C55_linked_append_negation`).
* `C55_linked_append_negation` [pq] (ForeignLinked.lean): When the code of the argument raises, `append` has a result nevertheless, with the exception still set, and -1 is in the list.
* `C55_linked_extend_partial` [p] (ForeignLinked.lean): `extend` and `+=` append what the iterator yields, one item after the other, to the list as it is by then, whatever the iterator and the conversions of the items do to it, as long as the items answer. Missing: items that raise (`C55_linked_extend_negation`).
* `C55_linked_extend_negation` [pq] (ForeignLinked.lean): An item that raises leaves -1 in the list.
* `C55_linked_extend_stops` [p] (ForeignLinked.lean): The same when the iterator has more items: the next one is fetched, whatever it does to the list, and the call raises what the conversion raised; no further item is stored.
* `C55_linked_setitem_partial` [pcq] (ForeignLinked.lean): `l[i] = x` stores at the position that `i` had before the code of `x` ran, if the list still has it. Missing: the list may have been shortened (`C55_linked_setitem_negation`).
* `C55_linked_setitem_negation` [pq] (ForeignLinked.lean): A value whose `__index__` empties the list makes `l[i] = x` write outside of it, for every valid index of every list.
* `C55_linked_setitem_exact` [pq] (ForeignLinked.lean): `l[i] = x` for arbitrary code in `i` and `x`, exactly: it writes outside of the list precisely if `i` is the valid position `p` of the list as its code left it, and the code of `x` leaves the list with no more than `p` elements, whether it answers or raises.
* `C55_linked_index_negation` [pq] (ForeignLinked.lean): The default of `stop` is out of date, as for the array lists.
* `C55_linked_slice_assignment_partial` [pcq] (ForeignLinked.lean): Slice assignment of a sequence whose methods remove no node uses only nodes of the list. Missing: code that removes nodes (`C55_linked_slice_assignment_negation`), and sequences whose `__len__` raises.
* `C55_linked_slice_assignment_plain` [pcq] (ForeignLinked.lean): A sequence of ints that leaves the list alone is assigned as a plain sequence is (C24).
* `C55_linked_slice_assignment_negation` [pq] (ForeignLinked.lean): A sequence whose first `__getitem__` empties the list makes `l[:] = v` write to a freed node, for every list that is not empty.
* `C55_linked_slice_del_negation` [p] (ForeignLinked.lean): It takes no emptying: removing the node at hand is enough, and inserting before a removed node is no better.
* `C55_linked_compare_partial` [pcq] (ForeignLinked.lean): Comparing with a sequence whose methods remove no node reads only nodes of the list; for `!=` if fetching an item never fails. Missing: code that removes nodes (`C55_linked_compare_negation`), `!=` with a `__getitem__` that raises (`C55_linked_ne_negation`).
* `C55_linked_compare_plain` [pcq] (ForeignLinked.lean): Comparing with a sequence of ints that leaves the list alone is comparing with a plain sequence (C15).
* `C55_linked_compare_negation` [pq] (ForeignLinked.lean): A sequence of the same length whose first `__getitem__` empties the list makes every comparison read a freed node.
* `C55_linked_ne_negation` [pq] (ForeignLinked.lean): `l != v` follows a null pointer when `v.__getitem__` raises, for every list that is not empty.
* `C55_linked_eq_exact` [pcq] (ForeignLinkedExact.lean): `l == v`: it reads a node that is gone, or behind the last one, exactly if `__len__` answers the number of elements there are by then, and some item and node that the walk gets to are such.
* `C55_linked_ne_exact` [pcq] (ForeignLinkedExact.lean): `l != v`: as for `==`, or it follows a null pointer, exactly if fetching an item raises after a number of items that were equal to the elements.
* `C55_linked_order_exact` [pcq] (ForeignLinkedExact.lean): The orderings: elements are compared only if there are as many as items, and an item that cannot be converted counts as -1.
* `C55_linked_slice_assignment_exact` [pcq] (ForeignLinkedExact.lean): `l[a:b] = v`, where `sl` is the slice: let `start` and `n` be its first position and its number of elements in the list `s1` that the code of its fields left (`unpack` and `adjustIndices` are `PySlice_Unpack` and `PySlice_AdjustIndices` of CPython), `s2` the list that `__len__` left, and `at_` the node at `start` in it. The assignment uses a node that is gone or goes past the last one exactly if * it does so at one of the items that are stored in the nodes of the slice, or * there are fewer items than the slice has elements, and in the end the node behind the last item is gone or has too few nodes behind it, or * there are more, and the node before which they are inserted is gone after the conversion of one of them, or * `__len__` raises (which counts as -1 items), and there are not `n + 1` nodes from `at_` on.

### C56 Methods of the elements of an object list may use the list

*Claim.* The elements of an object list may define __del__, __eq__ and __ne__ in Python, and these may run any code, including code that reads or changes the very list. clear, del l[i], slice assignment, == and != then behave as for a Python list: the element taken out is no longer in the list when its __del__ runs, exactly the elements nothing else refers to are destroyed, once each and in order, comparisons answer what the elements answer, and the process survives.

*Plan.* Model the cells (block or nodes), their contents with null pointers, and reference counts split into those of the list and all others; the methods of the elements are arbitrary functions on this state. Prove, for methods that leave the list alone, equality with a small specification of destruction order and comparison (induction over the cells); for methods that use the list prove the undefined behaviour.

*Status: partial.* Object lists down to their cells and reference counts, elements with arbitrary methods. clear, del l[i], slice assignment of equal length, == and != behave as for Python lists when the methods of the elements do not touch the list. Violated (negations): during clear a finaliser finds null pointers, or moves the block that is then written, or its element is lost; the same for del and slice assignment; == and != go on over a list emptied by __eq__, and pass on a destroyed element.

* `C56_clear_partial` [pcq] (Elems.lean): `l.clear()` when the finalisers do not touch the list: the list ends empty and owns no reference, and exactly the elements without any other reference are destroyed, in order, each when its last place is dropped. What is missing: finalisers that use the list, see `C56_clear_read_null`, `C56_clear_append_freed` and `C56_clear_append_lost`.
* `C56_delete_partial` [pcq] (Elems.lean): `del l[i]` when the finalisers do not touch the list. What is missing: `C56_delete_append_freed`.
* `C56_set_slice_partial` [pcq] (Elems.lean): Slice assignment of as many elements of another list as are replaced, when the finalisers do not touch the list and leave the other list its elements. What is missing: `C56_set_slice_append_freed`.
* `C56_compare_partial` [pcq] (Elems.lean): `l == s` and `l != s` when the methods of the elements do not touch the list: the answer is that of Python's lists, and the list is unchanged. What is missing: `C56_compare_clear` and `C56_compare_dead`.
* `C56_clear_read_null` [pcq] (Elems.lean): Clearing a list whose second element, on its destruction, looks at the first place of the list: it finds a null pointer. A Python list is empty by then.
* `C56_clear_append_freed` [pcq] (Elems.lean): Clearing a full array whose first element appends to it on its destruction: a freed block is written.
* `C56_delete_append_freed` [pq] (Elems.lean): Deleting an element of a full array that appends to the list on its destruction: a freed block is written.
* `C56_set_slice_append_freed` [pq] (Elems.lean): Replacing the first element of a full array that appends to the list on its destruction: a freed block is written.
* `C56_clear_append_lost` [pcq] (Elems.lean): Clearing a linked list with one element that appends `z` on its destruction: the list ends empty, and the reference to `z` is dropped with it. In Python the list is empty before, and ends as `[z]`.
* `C56_compare_clear` [pcq] (Elems.lean): Comparing a list of at least two elements, where comparing the first one empties the list and finds it equal: the array is read behind its end, the linked list goes on from a freed node. A Python list stops and answers.
* `C56_compare_dead` [pcq] (Elems.lean): Comparing a list whose first element is held only by the list, where its `__eq__` empties the list and does not know the answer: the destroyed object is passed on to the other one's `__eq__`. Python's lists hold a reference meanwhile.

### C57 Text passes whole through fputs and fgets

*Claim.* Unsafe.fputs puts the UTF-8 text of its argument on standard output, whole and in call order, and after fflush everything has left the process; a value that is no text raises and writes nothing. Repeated calls of Unsafe.fgets(n) return the text on standard input without loss or repetition, each time the next line or, if it does not fit, the next n - 1 characters, and an empty string at the end; a size that is not positive raises, and memory use does not grow with the number of calls.

*Plan.* Streams are lists of bytes, with UTF-8 coding and decoding written out; the C library may send waiting bytes at any time. Prove that decoding inverts coding, that `fputs` histories add up, and by induction over the text that repeated `fgets` divide it into pieces as specified; prove the exceptions separately.

*Status: partial.* fputs for strings without zero characters, over all histories; fgets for texts that are ASCII or whose lines fit the buffer, all sizes from 2 to 2^31 - 1. Violated (negations): fputs cuts at a zero character; fgets raises at the end instead of returning an empty string, makes no progress with size 1, cuts sizes to 32 bits, destroys a multi-byte character at the end of the buffer, loses the rest of a line after a zero character, and never frees its buffer. Exact (iff): the histories of fputs that lose nothing, and the sizes at which fgets returns what it should.

* `C57_fputs_partial` [pcq] (Stream.lean): Every history of `fputs` and `fflush` with strings free of zero characters, whatever the C library sends when: what was sent, with what is still waiting, is what was there before followed by the UTF-8 encodings of the strings written, in order, where a string with a surrogate raises and writes nothing; after `fflush` nothing is waiting. What is missing: strings with zero characters, see `C57_fputs_nul`.
* `C57_fputs_nul` [pcq] (Stream.lean): A string with a zero character is cut there: no exception, the rest is not written.
* `C57_fgets_partial` [pcq] (Stream.lean): Reading a text with `fgets(n)`, where the text is ASCII or its lines fit the buffer: the calls return the text, divided into lines and full buffers, and only then raise. What is missing: `C57_fgets_end` (the documentation promises an empty string at the end), `C57_fgets_one`, `C57_fgets_size`, `C57_fgets_nul`, `C57_fgets_split` and `C57_fgets_leak`.
* `C57_fgets_step_partial` [pcq] (Stream.lean): One call on a text that is not at its end returns and consumes what the documentation says.
* `C57_fgets_end` [pcq] (Stream.lean): At the end of the input `fgets` raises RuntimeError; the documentation says it returns an empty string.
* `C57_fgets_one` [pcq] (Stream.lean): With a buffer for the terminator alone, `fgets` returns an empty string and consumes nothing, for ever.
* `C57_fgets_split` [pcq] (Stream.lean): A character of several bytes at the end of the buffer is destroyed: the call raises UnicodeDecodeError, and the first byte is gone.
* `C57_fgets_nul` [pcq] (Stream.lean): A line with a zero character is cut there, and the rest of the line is lost.
* `C57_fgets_size` [pcq] (Stream.lean): Sizes are cut to 32 bits: some positive sizes are rejected as not positive, and others shrink.
* `C57_fgets_leak` [pcq] (Stream.lean): Every call takes memory that is never given back.
* `C57_fputs_exact` [pcq] (StreamExact.lean): C57 for writing, exactly: after a history of `fputs` and `fflush`, what was sent with what is waiting is what should be there if and only if no text that was written has a zero character.
* `C57_fgets_exact` [pcq] (StreamExact.lean): C57 for reading, exactly: `fgets(v)`, `v` positive, returns the next at most `v - 1` characters of the line and leaves the rest if and only if there is text left, the bytes of these characters fit in a buffer of `C57_room v` with its terminator, and none of them is a zero character - or the buffer has room for the terminator only, and nothing was to be returned.

### C58 Calling a C function delivers its result

*Claim.* Unsafe.callVoid, callInt, callLongLong and call(func, result, size) run the function at the given address once; callInt and callLongLong return its value as the Python int of the same value; call stores the size bytes of its value at result and changes nothing else, size 0 meaning no value; arguments that are no addresses, and wrong numbers of arguments, raise before anything is called.

*Plan.* The code called is an arbitrary function on memory with values in rax and rdx. Specify return values by the calling convention; prove the returned object or the stored bytes equal, for all register contents.

*Status: partial.* callVoid, callLongLong and refusals for all functions; call for sizes up to 8, and for larger sizes as a copy from the returned address. Violated (negations): callInt on 3.12+ for values outside 1..2^30-1; call with sizes 9 to 16 takes a register for an address. callInt exactly (iff).

* `C58_call_void_long_long` [pcq] (Calls.lean): `callVoid` and `callLongLong` with an address: the memory is as the function left it, and the answer is `None` or the function's `long long`, for every function.
* `C58_call_int_partial` [pcq] (Calls.lean): `callInt` answers with the function's `int`, if the interpreter is 3.11 or earlier or the value is between 1 and 2^30 - 1. What is missing: `C58_call_int_negation`.
* `C58_call_int_negation` [pcq] (Calls.lean): From 3.12 on, every other value comes back as an object that is not the `int` Python would make.
* `C58_call_int_exact` [pcq] (Calls.lean): C58, `callInt`, exactly: the int the function returned comes back as the object Python makes for it precisely up to 3.11, or if it is between 1 and 2^30 - 1.
* `C58_call_partial` [pcq] (Calls.lean): `call(func, result, size)` for a return value of up to 8 bytes: the function runs, and its value is at `result`; nothing else changes. Size 0 is `callVoid`. What is missing: `C58_call_pair_negation`.
* `C58_call_pointer` [pcq] (Calls.lean): `call` with a size above 8 copies from the address the function returned (for sizes above 16 this is what the documentation describes).
* `C58_call_pair_negation` [pcq] (Calls.lean): A return value of 9 to 16 bytes is in rax and rdx; `call` takes rax for an address and reads there.
* `C58_call_refused` [pq] (Calls.lean): Wrong numbers of arguments and arguments that are no addresses raise before anything is called.

### C59 repr of an object list is the repr of the Python list

*Claim.* repr(l) and str(l) of an object list give the text of a Python list with the same elements, for elements of any kind, other object lists included at any depth; a list that contains itself, directly or through others, is shown as [...] in that place; an exception of an element's __repr__, or RecursionError for too deep a nesting, comes out of the call; and an element whose __repr__ changes the list does no harm.

*Plan.* Worlds of lists of both classes and other objects with arbitrary __repr__ code; specification: Python's list_repr with its guard against recursion. Simulation by induction on the limit of nested calls, inside it on the loop; for cycles, induction on the limit.

*Status: partial.* Both object lists, nested to any depth, with elements whose __repr__ replaces elements at most: text, exceptions, RecursionError at the same depth, and contents as for Python lists (C59_text gives the text in closed form). Violated (negations): lists that contain themselves always raise RecursionError; an element whose __repr__ clears the list makes the call read behind the end or a freed node; one that shortens the list is shown twice. Exact (iff) for elements whose __repr__ changes and raises nothing: lists without cycles.

* `C59_repr_partial` [pcq] (Text.lean): `repr(o)` when no list contains itself and the elements' `__repr__` replaces elements at most: text or exception are those of Python's lists with the same contents, at every nesting depth (beyond the limit of nested calls both raise RecursionError), and so are the lists left behind. What is missing: `C59_cycle_negation`, `C59_clear_array`, `C59_clear_linked` and `C59_shrink_repeats`.
* `C59_text` [pcq] (Text.lean): A list whose elements have the texts `ts` has the text `[t, t, …]`, in Python.
* `C59_cycle_negation` [pcq] (Text.lean): A list from which one can go from list to list without end (lists `C`) has no text, however many nested calls are allowed: `repr` raises RecursionError, although no element's `__repr__` raises anything.
* `C59_cycle_python` [pcq] (Text.lean): The list `xs + [l]`, where `l` is the list itself: Python writes `[...]` in the place of the list.
* `C59_clear_array` [pcq] (Text.lean): An ObjectArrayList of two or more elements whose first element clears it: elements behind the end are read, where Python has the text of one element.
* `C59_clear_linked` [pcq] (Text.lean): The same for ObjectLinkedList: the iterator is at a node that has been freed.
* `C59_shrink_repeats` [pcq] (Text.lean): A list of two or more elements whose first element removes the others (and has the text `t`): the text shows that element twice, in both classes, where Python shows it once.
* `C59_exact` [pcq] (TextExact.lean): C59, exactly, for elements with any texts whose `__repr__` changes and raises nothing: `repr(o)` is what it is for Python's lists if and only if `o` neither is nor contains a list that contains itself, or the nesting is so deep that Python raises RecursionError as well.

### C60 A list of objects that cannot get memory raises, keeps its elements and loses no references

*Claim.* When the machine refuses memory, a call on an object list raises, the list is what it was before, and every object is counted as often as before; calls for which there is enough memory do what they do with unlimited memory. A constructor that fails leaves no trace: the objects it was given are counted as before.

*Plan.* Machines as arbitrary answers to requests; vectors with capacities, list nodes asked for one by one; references counted as in C29. Each call is compared with its unlimited model; `*` by an invariant of its loop (the counted references are those of the elements so far), histories by induction, *= of ObjectArrayList by the capacity still left.

*Status: partial.* Every call but extend, +=, *= and slice assignment, on both object lists, for every machine: as with unlimited memory, or RuntimeError with elements and all counts unchanged; histories; with enough memory every call is that of the unlimited model. Violated (negations): a refusal in extend or += ends the process, as does an iterator announcing too much; *= and slice assignment leave the list changed, the latter of ObjectArrayList with a leaked reference; *= of ObjectArrayList with n >= 2 raises on every machine; failing constructors leak references.

* `C60_array_partial` [pq] (Refuse.lean): Outside `extend`, `+=`, `*=` and slice assignment: on every machine, in every state, a call on an ObjectArrayList does what it does with unlimited memory, or it raises RuntimeError and neither the elements nor any reference count have changed. The full claim, for all calls, is false of the code: `C60_extend_array_negation`, `C60_imul_array_negation`, `C60_slice_array_negation`.
* `C60_linked_partial` [pq] (Refuse.lean): The same for an ObjectLinkedList, whose every node is a request of its own. The full claim is false of the code: `C60_extend_linked_negation`, `C60_imul_linked_negation`, `C60_slice_linked_negation`.
* `C60_array_history_partial` [pq] (Refuse.lean): Histories: after any number of such calls on any machine, list and counts are those that the calls which were not refused lead to with unlimited memory.
* `C60_linked_history_partial` [pq] (Refuse.lean): 
* `C60_array_enough` [pq] (Refuse.lean): Within what the machine grants — twice the elements the call needs room for, because a vector doubles its storage — every call on an ObjectArrayList does what it does with unlimited memory; `l *= n` is excluded for `n` at least 2 on a list with elements, which never ends in the unlimited model.
* `C60_linked_enough` [pq] (Refuse.lean): A machine that grants every node: every call on an ObjectLinkedList does what it does with unlimited memory.
* `C60_linked_copy_exact` [pq] (Refuse.lean): `copy()` of an ObjectLinkedList needs exactly one node for each element: with them it is done, whatever the machine does with later requests; with one of them refused it raises and everything is as before.
* `C60_create_linked_same` [pq] (Refuse.lean): A refused request for memory while an ObjectLinkedList is made from another one: RuntimeError, and what is destroyed then holds nothing.
* `C60_resize_huge` [pcq] (Refuse.lean): A request for more than 2^60 - 1 elements is refused by the vector itself, whatever the machine: `resize` raises and the list is unchanged.
* `C60_extend_array_negation` [pq] (Refuse.lean): `extend` and `+=` of an ObjectArrayList that must grow end the process when the machine refuses: a Python list of live objects, an ObjectArrayList of live objects.
* `C60_hint_negation` [pq] (Refuse.lean): An iterator that announces too many items ends the process before the first of them is asked for.
* `C60_extend_linked_negation` [p] (Refuse.lean): One node refused in `extend` or `+=` of an ObjectLinkedList ends the process, even when the process could go on.
* `C60_imul_array_negation` [pcq] (Refuse.lean): `l *= n` with `n` at least 2 on an ObjectArrayList with elements raises RuntimeError on every machine, however much memory it has; the list keeps what was stored on the way, and is longer than before whenever the room for the product was granted.
* `C60_imul_linked_negation` [pq] (Refuse.lean): `l *= n` on an ObjectLinkedList: when the machine grants one node and refuses the next, the call raises and the list has one element more than before.
* `C60_slice_leak_negation` [pq] (Refuse.lean): `l[0:0] = (o,)` refused on an ObjectArrayList: the list is unchanged, but `o` has one reference more, which nobody holds.
* `C60_slice_array_negation` [pq] (Refuse.lean): `l[0:1] = (a, b)` refused on a full ObjectArrayList: RuntimeError, and the first element is `a` now.
* `C60_slice_linked_negation` [pq] (Refuse.lean): `l[0:0] = (a, b)` on an ObjectLinkedList when the second node is refused: RuntimeError, and `a` has been inserted.
* `C60_create_array_negation` [pq] (Refuse.lean): ObjectArrayList(list) when the machine refuses the storage: RuntimeError, and after the half-built object is destroyed every item has one reference more for each of its occurrences.
* `C60_create_array_iter_negation` [pq] (Refuse.lean): A constructor that fails over an iterator leaks exactly the reference to the item for which there was no room.
* `C60_create_linked_negation` [pq] (Refuse.lean): The constructor of ObjectLinkedList leaks that reference over an iterator as well as over a list or tuple.

### C61 Calls on int lists take and release references exactly

*Claim.* After any call on an int list or on one of its iterators, successful or not, every Python object is counted as often as before plus one for each reference the caller has received; objects made on the way and not returned are freed. So a program that lets go of all results leaves no object behind, however many calls it makes.

*Plan.* Each call runs on a table of reference counts and makes objects with new identities; operands carry the identities of their items. By induction over the item loops: the counts afterwards are those before plus the references of the result. Forgetting identities gives the models of C03 to C15. Histories by induction, the caller acting in between.

*Status: partial.* Proved in full for IntArrayList and BigIntArrayList (every call, histories with the caller's own handling of references), for the constructors, for sort with any key function and for iterators. IntLinkedList: every call but l[i], l[a:b], to_list, +, and comparisons and slice assignments with an IntLinkedList; violated by these (negations: l[i] leaks one reference, the others one per element). C61_linked_exact: the number of references lost is given exactly for every call of IntLinkedList.  Histories of IntLinkedList with the exact number of references lost: C61_linked_history.

* `C61_array_calls` [pcq] (Ledger.lean): Every call of IntArrayList and BigIntArrayList, in every memory, with every operand and however it ends: it does what it does without identities (`Agrees`; in particular references cause no undefined behaviour), and afterwards the count of every object is what it was plus the references given to the caller. Objects made on the way and not returned are gone.
* `C61_array_history` [pcq] (Ledger.lean): Histories of any length, in which the caller also releases references, takes new ones and makes objects of its own: the counts are those at the beginning, plus what the caller has got, minus what it has released.
* `C61_array_no_trace` [pcq] (Ledger.lean): A caller that has released all it got leaves no trace: every object has its old count, and no object made since is alive.
* `C61_init` [pq] (Ledger.lean): The constructor (of all three int lists) with an iterable: it does what it does without identities, and all counts are as before, whether it succeeds or raises.
* `C61_sort_key` [pcq] (Ledger.lean): `sort` with a key, for every key function (`keys` are its answers, in the order of the elements) and every rearrangement: ints and keys made on the way are gone, and all counts are as before. A key function that raises stops it.
* `C61_iterator` [pq] (Ledger.lean): An iterator takes one reference to the list and gives it back: whatever the caller receives while it exists (`gs`, for instance the ints of `next`), when the iterator goes, the counts are those before its creation plus `gs`.
* `C61_iterator_next` [pq] (Ledger.lean): `next` gives one reference.
* `C61_linked_calls_partial` [pcq] (Ledger.lean): Every call of IntLinkedList that is not `Leaky` — indexing, `to_list`, `+`, and comparisons and slice assignments with an IntLinkedList as operand. For all calls the claim is false: `C61_linked_negation`.
* `C61_linked_history_partial` [pcq] (Ledger.lean): Histories without leaky calls.
* `C61_linked_getitem_leaks` [pq] (Ledger.lean): `l[i]` of an IntLinkedList: the int comes with two references, of which the caller receives one.
* `C61_linked_list_leaks` [pcq] (Ledger.lean): `l[a:b]` and `to_list` of an IntLinkedList: every element has one reference too many.
* `C61_linked_add_leaks` [pcq] (Ledger.lean): `l + x` with `x` no IntLinkedList: as many references as the list has elements are never released, also when `+` raises TypeError.
* `C61_linked_eq_leaks` [pcq] (Ledger.lean): `l == x` of IntLinkedLists that answers True: as many references as there are elements are never released.
* `C61_linked_negation` [pq] (Ledger.lean): So the claim for all calls is false: after `x = l[0]; del x` on the list `[5]` the int is still alive, with a count of 1 that nobody owns.
* `C61_linked_exact` [pcq] (LedgerExact.lean): Every call of IntLinkedList that returns or raises: the counts are what they were, plus the references given to the caller, plus as many as `lost` says that nobody owns.
* `C61_linked_history` [pcq] (LedgerExact.lean): C61 over histories of IntLinkedList: whatever the calls are, and however the caller takes and releases references between them, the counts are what the caller's own doings make them, plus exactly as many references as `lost` gives for the calls one by one. The list of them is in `leak`: nobody owns them.
* `C61_linked_no_trace_exact` [pcq] (LedgerExact.lean): A caller that has released all it got leaves no trace exactly if the calls lost no reference to an object that is not immortal.
* `C61_linked_self_compare` [pcq] (LedgerExact.lean): Ten comparisons with itself of a list of a thousand elements lose ten thousand references. In general, with CPython 3.11 or elements that are not negative: comparing a list with itself loses one for each element, every time.

### C62 A constructor call yields the list of its argument's elements or raises

*Claim.* IntArrayList(...), BigIntArrayList(...), IntLinkedList(...), ObjectArrayList(...) and ObjectLinkedList(...), called with any positional and keyword arguments, bind them as a Python function with the documented parameters would and yield the list of the elements of the iterable (the empty list without one); a call that does not fit the parameters raises TypeError and yields no list; exceptions of the code of the arguments and of their elements come out of the call; and whatever that code does, to the given Python list too, only memory that is alive is read.

*Plan.* Model `PyArg_ParseTupleAndKeywords` for the two formats on lists of positional and named arguments, and the element loops over a Python list whose storage (a block number) and contents depend on a state that the code of the elements changes. Parsing is shown equal to a declarative binding (no positional argument too many, every keyword names a free parameter) by counting used keywords; the loops by induction against the elements in order. The dangling storage pointer is an outcome of its own; negation for every list of two or more elements.

*Status: partial.* Binding of arguments is proved for every call; elements are exact for all five classes except for the cases with negations: the array lists answer a wrong call with an empty list while the exception is set; the int lists keep the address of the storage of a given Python list while the code of its elements runs, and read freed memory if that code moves the list; exceptions of elements and of `__iter__` are replaced by RuntimeError and TypeError; subclasses of list with their own `__iter__` are read as bare lists. Truncated ints: C49.

* `C62_array_partial` [pcq] (Construct.lean): `IntArrayList(…)` and `BigIntArrayList(…)`: a call that fits the parameters, with an iterable, makes the list of the expected elements and runs the code that is expected to run; if an exception is expected, there is one at that point. Missing: list subclasses with their own `__iter__` (`C62_subclass_negation`), elements whose code changes the Python list that is read (`C62_memory_negation`), ints between 32 and 64 bits (C49), and the exception raised may be another one (`C62_exception_negation`).
* `C62_linked_partial` [pcq] (Construct.lean): `IntLinkedList(…)`, likewise.
* `C62_object_array_partial` [pcq] (Construct.lean): `ObjectArrayList(…)`: the list has exactly the objects that are expected, also when a list or a tuple among the arguments has elements that run code. Missing: list subclasses with their own `__iter__`; the exception raised may be another one.
* `C62_object_linked_partial` [pcq] (Construct.lean): `ObjectLinkedList(…)`, likewise.
* `C62_empty` [pcq] (Construct.lean): Without an iterable an array list is empty: no argument at all, only `exceptSize`, or an int in place of the iterable, which then is the size to reserve (and the argument `exceptSize` does not matter).
* `C62_linked_bad_call` [pcq] (Construct.lean): `IntLinkedList(…)` and `ObjectLinkedList(…)` with arguments that do not fit raise TypeError and run no code.
* `C62_bad_call_negation` [pcq] (Construct.lean): The array lists: every call with arguments that do not fit, with an `exceptSize` that raises or is too large, or with an int beyond the machine's word in place of the iterable, "succeeds" with an empty list while the exception is set.
* `C62_memory_partial` [pcq] (Construct.lean): No call reads memory that a Python list among the arguments no longer has, if the code of the elements neither moves nor shortens that list; tuples and other iterables need no such condition. Missing: code that does (`C62_memory_negation`).
* `C62_memory_negation` [p] (Construct.lean): Every list of two or more elements: if the code of the first one makes the list move to another block (clearing it, or making it grow, does), the constructor reads the freed block.
* `C62_shrunk_negation` [p] (Construct.lean): Every list of two or more elements that stays where it is: if the code of the first one leaves it with at most one element, the constructor reads behind the end.
* `C62_no_room` [pcq] (Construct.lean): A size for which there is no memory, given as `exceptSize` or in place of the iterable: RuntimeError, and no element is asked for.
* `C62_exception_negation` [p] (Construct.lean): The exception that the code of an element raises is replaced by a RuntimeError, that of `__iter__` by a TypeError, whatever they were.
* `C62_subclass_negation` [pcq] (Construct.lean): An object of a class derived from `list` is read as the bare list: one whose `__iter__` yields nothing, so that the list should be empty, gives the elements that its list part has.

### C63 SIMD copies and reversals act on exactly the memory they are given

*Claim.* SIMD.memcpyX(src, dst, n), memcpyXAligned(src, dst, n) and reverseX(p, n) return None and leave the n elements of type X from src at dst, or the n elements at p in opposite order, where an element has the size of the type in the name; no other byte changes. A wrong number of arguments raises TypeError, and an address or number of elements that is none (not an int, negative, 2^64 or more) raises; a call that raises touches no memory.

*Plan.* Model the three method templates (SIMD.cpp 35-90) with their argument conversions and error values, the table of element types, and the flat memory of the Unsafe model; the copies and reversals are those of C38 and C39, on chunks of bytes. Proved by generalising the alignment analysis of C38 to arbitrary source addresses and by translating chunk lists to bytes of memory. Overlapping ranges are undefined behaviour in the model (`__restrict`).

*Status: partial.* memcpyX: full. memcpyXAligned: done if both addresses have the alignment the instructions need, always with multiples of 64, a fault otherwise. reverseX: full for all types but long double on AVX2 (negation, C39). Wrong numbers of arguments raise. Violated (negations): conversions are not checked, so that an invalid number of elements makes every method run over the whole address space, an invalid address is taken for 0 or 2^64 - 1, and with nothing to do the exception is left set. reverseLongDouble exactly (iff): equal halves where the AVX2 loop is used.

* `C63_memcpy` [pcq] (SimdCall.lean): C63, `memcpyX`: for every CPU, every element type and every number of elements, a call with the addresses of two separate ranges of living memory returns None, the bytes of the elements are at the destination, and nothing else has changed.
* `C63_memcpyAligned_dichotomy` [pcq] (SimdCall.lean): C63, `memcpyXAligned`: the same if both addresses have the alignment that the vector instructions used for this many elements ask for, a fault otherwise.
* `C63_memcpyAligned` [pcq] (SimdCall.lean): C63, `memcpyXAligned` with addresses that are multiples of 64, as the documentation asks: always done.
* `C63_reverse_partial` [pcq] (SimdCall.lean): C63, `reverseX`: in every case but the one of C39 (elements of 16 bytes, long enough for the AVX2 loop), the elements are in opposite order and nothing else has changed.
* `C63_reverseLongDouble_negation` [pcq] (SimdCall.lean): C63 fails for `reverseLongDouble` on AVX2 machines (C39): the halves of elements are exchanged.
* `C63_reverseLongDouble_exact` [pcq] (SimdCall.lean): C63, `reverseLongDouble`, exactly: with `n` elements in living memory, the call reverses them precisely when every element that the AVX2 loop exchanges (pairs at both ends that the AVX-512 loop has not handled) consists of two equal halves.
* `C63_wrong_number` [pq] (SimdCall.lean): C63, wrong number of arguments: TypeError, nothing touched.
* `C63_bad_count_negation` [pcq] (SimdCall.lean): C63 fails for a number of elements that is none (negative, 2^64 or more, or no int): no method raises; every method runs over all of the address space, for every element type, on every machine.
* `C63_bad_address_negation` [pcq] (SimdCall.lean): C63 fails for an address that is none: with elements to handle, `memcpyX` goes to the last address of the machine, `memcpyXAligned` and `reverseX` to address 0, instead of raising.
* `C63_pending_negation` [pq] (SimdCall.lean): C63 fails for an address that is none even with nothing to do: the call returns a value with the exception set.

### C64 A method call binds its arguments as Python's list does

*Claim.* l.name(*args, **kwargs) for any method of a list class and any positional and keyword arguments asks for what the method of Python's list of that name is documented to do with these arguments; a call that does not fit the documented parameters raises TypeError and changes nothing; names that list does not have raise AttributeError unless the library documents them. Together with C03 and C24 this says of calls on int lists by name exactly when their outcomes are those of a Python list.

*Plan.* Model the type dictionary as CPython builds it from slots and method table (first entry of a name wins), the calling conventions of the flags, and the argument parsing; specify each signature on its own. Dictionary lookup is settled by evaluating the whole finite table in the kernel; parsing of `sort` by a case analysis over arbitrary argument lists; composed with the exact theorems of C03 and C24.

*Status: partial.* Exact: a call asks for what is documented iff it is none of the deviating calls (pop of an empty list with two or more arguments: IndexError; sort with positional arguments, with a value of reverse that is not a C int, or on an int list without key with one that is neither 0 nor 1). End to end for the int lists with C03 and C24. Not here: __class_getitem__, __init__ (C62), what is inherited from object. End to end for the object lists with C33.

* `C64_names` [p] (Methods.lean): A name is missing exactly where it should be: every class has all methods of `list`.
* `C64_exact_partial` [pcq] (Methods.lean): C64. A call asks for what is documented, and is refused with a TypeError if it should be, exactly unless it `Deviates`: `pop` with two arguments or more on an empty list, `sort` with positional arguments, with a value of `reverse` that is not a C `int`, or with one that is neither 0 nor 1 on an int list without a key.
* `C64_refused` [pcq] (Methods.lean): A call of any method but `sort` that is not documented is always refused, and with a TypeError unless it is `pop` on an empty list.
* `C64_pop_negation` [p] (Methods.lean): C64, deviation: `pop` of an empty list with too many arguments is an IndexError.
* `C64_sort_positional_negation` [p] (Methods.lean): C64, deviation: `sort(f)` and `sort(f, n)` sort, although the parameters of `list.sort` are keyword-only.
* `C64_sort_reverse_negation` [pcq] (Methods.lean): C64, deviation: `sort(reverse=n)` of an int list with a number such as 2 or -1 sorts in ascending order; the object lists sort in descending order.
* `C64_array_exact` [pcq] (Methods.lean): C64 with C03: any call by name on an IntArrayList or BigIntArrayList, with any arguments, does what the call does on a Python list, exactly if it does not deviate and what it asks for is in `Exact`. (`Matches` leaves out calls that ask for a sort, a range or an iterator.)
* `C64_linked_exact` [pcq] (Methods.lean): C64 with C24: the same for IntLinkedList.
* `C64_ObjectArrayList_exact` [pcq] (MethodsObj.lean): C64 with C33: any call of a method of ObjectArrayList by name, with any arguments, does what the call does on a Python list, exactly if it does not deviate and what it asks for is in `Exact`. (`OMatches` leaves out calls that ask for an iterator or the text of the list.)
* `C64_ObjectLinkedList_exact` [pcq] (MethodsObj.lean): C64 with C33: the same for ObjectLinkedList, which has no `resize` (`Covers`).

### C65 The attributes of a list do not depend on what the program has done before

*Claim.* An attribute that a class of the library has is found on its lists (or Unsafe, SIMD, SIMDLowAVX512, ASM objects) at any point of a program: by a method call in any form (with keywords, with stars), by getattr, by taking a bound method without calling it, and hasattr says so; isinstance with an abstract class has an answer; setting an attribute raises AttributeError.

*Plan.* Model the state of the type objects (ready or not) and the entry points of CPython that read or prepare them (PyObject_GetAttr, _PyObject_GetMethod, _PyType_Lookup, type_getattro, ...); by induction over histories the type is ready iff an earlier step prepares it; exact iff per step, negations for unprepared classes.

*Status: partial.* Exact over all histories: a step shows what it should iff the class was prepared by an earlier step of the program or the step does not need it. Violated (negations): PyType_Ready is never called by the library, so that until the first plain method call (or reference to the class's attributes) getattr raises, hasattr is False, calls with stars, and before 3.11 with keywords, raise AttributeError. CPython's behaviour on such types is part of the model; specialisation of instructions in 3.11 is left out.  The four classes of pyfastutil.unsafe are included: C65_with, C65_tool_negation.

* `C65_exact_partial` [pq] (Ready.lean): C65. After any history, a step shows what it should exactly if the class was prepared by an earlier step (a method call written with `.` and without stars, a reference to an attribute of the class, …), or the step is not one of those that need it: fetching an attribute that exists without calling it, `hasattr`, a call with stars or, before Python 3.11, with keywords, assignment to an attribute, `isinstance` with an abstract class.
* `C65_method_call` [pq] (Ready.lean): A plain method call always finds the method.
* `C65_after_call` [pq] (Ready.lean): After it, everything is as it should be for good.
* `C65_fetch_negation` [pq] (Ready.lean): C65, deviation: in a program that only makes lists, indexes, iterates over, compares and prints them, and the like, `l.append` without a call is an AttributeError, and `hasattr` says no.
* `C65_call_negation` [pq] (Ready.lean): C65, deviation: `IntArrayList(x).sort(reverse=True)` at the beginning of a program is an AttributeError before Python 3.11, and `l.append(*args)` in any version.
* `C65_assign_negation` [p] (Ready.lean): C65, deviation: setting an attribute raises a TypeError, and `isinstance(l, Sized)` an AttributeError, on a list of a class that is not prepared; afterwards the first raises an AttributeError and the second has an answer.
* `C65_with` [pq] (Ready.lean): A `with` statement over an Unsafe, SIMD, SIMDLowAVX512 or ASM object finds `__enter__` and `__exit__` after any history, and prepares the class.
* `C65_tool_negation` [p] (Ready.lean): C65, deviation: `malloc = Unsafe().malloc` at the beginning of a program is an AttributeError, after `hash(Unsafe())` it is not; on a list `hash` does not help.
* `C65_classes` [pq] (Ready.lean): A step prepares no class but its own.

### C66 A call that other threads run beside acts as one step

*Claim.* Whatever threads do with lists at the same time, each call acts at once for all others, as with Python's own lists: what every thread learns is what it learns if the calls happen one after the other, each at some moment between its beginning and its end, and no call reads or writes memory that is not alive.

*Plan.* Model schedules over the memory of Model/Store: reverse, * and *= as sequences of single loads and stores, all other calls as one step; specification Serial: every call acts when it begins. Simulation: the serial memory is the real one with the blocks under reversal replaced by their targets (overlay), and a loop invariant of qReverse over its rounds. Negations for threads that use the list meanwhile. Linked lists: std::reverse node by node over the memory of Model/Nodes (Model/LinkedThreads), loop invariant Doing, the lists under reversal kept apart (Keeps). ObjectArrayList: one list with its storage and the reference counts (Model/ObjThreads).

*Status: partial.* Proved for all five lists and all schedules in which no other thread uses a list while it is being reversed (int array lists: nor changes it while it is being repeated); a reverse in progress always ends, within a bound in the length. Violated otherwise (negations): use after free when another thread appends to an array list during reverse or *, or clears or pops from a linked list; a moment at which another thread sees neither the list nor its reverse (every list that is not its own reverse); popped elements that come back, for object lists as freed objects; appends lost by *= 1 (exactly when the length has changed). Accesses are interleaved (no weaker memory model); for ObjectArrayList one list.

* `C66_linked_partial` [pcq] (LinkedThreads.lean): For every schedule in which no other thread uses a list while it is being reversed: no undefined behaviour, what the threads learn is what they learn when every call acts at once, and so are all lists that are not being reversed at the end.
* `C66_linked_reverse_ends` [pcq] (LinkedThreads.lean): In such a schedule a `reverse` in progress can always be brought to its end by its own thread, in at most six accesses per element and one more; the list is then as if the call had acted at once.
* `C66_linked_clear_uaf` [pcq] (LinkedThreads.lean): The property fails: if another thread clears a list that is being reversed, the next access but one is to freed memory, for every list with elements, after every history.
* `C66_linked_clear_any_uaf` [pcq] (LinkedThreads.lean): The property fails at every moment: in any schedule in which no other thread uses a list while it is being reversed, as soon as the call holds iterators to two elements and until it is over, a `clear` by another thread makes its very next access one to freed memory.
* `C66_linked_pop_uaf` [pcq] (LinkedThreads.lean): The property fails: if another thread pops the last element just when it is about to be swapped, the call reads the freed node, for every list with two or more elements.
* `C66_linked_torn` [pcq] (LinkedThreads.lean): The property fails: for every list that is not its own reverse there is a moment at which another thread finds neither the list nor its reverse.
* `C66_obj_partial` [pcq] (ObjThreads.lean): For every schedule in which no thread uses the list while it is being reversed (other threads may give up references): what the threads learn, the reference counts, undefined behaviour, and the list once it is not being reversed, are as when every call acts at once.
* `C66_obj_reverse_ends` [pcq] (ObjThreads.lean): In such a schedule a `reverse` in progress can always be brought to its end by its own thread.
* `C66_obj_append_uaf` [pq] (ObjThreads.lean): The property fails: if another thread appends to a list of two or more elements while it is being reversed and the storage is full, the next access is to freed memory.
* `C66_obj_pop_dangles` [pcq] (ObjThreads.lean): The property fails: if another thread pops the last element while the list is being reversed, the list gets it back without a reference. When that thread gives its reference up, the list holds a freed object, and the next call that looks at the elements uses it.
* `C66_partial` [pcq] (Threads.lean): For every schedule in which no other thread uses a list while it is being reversed, and none changes it while it is being repeated: what the threads learn, step by step, is what they learn when every call acts at once, and so are all lists that are not being reversed at the end. Undefined behaviour appears only in calls that have it with no call beside them.
* `C66_reverse_ends` [pcq] (Threads.lean): With no other thread beside it, `reverse` ends after at most two accesses per element, whatever the history. The list is reversed and the others are as before.
* `C66_reverse_append_uaf` [pcq] (Threads.lean): The property fails: if another thread appends to a list of two or more elements while it is being reversed, often enough for the list to move, the next access is to freed memory.
* `C66_reverse_torn` [pcq] (Threads.lean): The property fails: for every list that is not its own reverse there is a moment at which another thread finds neither the list nor its reverse.
* `C66_reverse_pop` [pcq] (Threads.lean): The property fails: an element that another thread pops while the list is being reversed is still in the list afterwards, and the first element is gone, which no order of the two calls gives unless all elements are equal.
* `C66_imul_length` [pcq] (Threads.lean): `l *= 1` gives the list back the length it had when the call began: what other threads appended meanwhile is lost, and for what they took away there are zeros. It acts as one step exactly if the length is the same.
* `C66_imul_loses` [pcq] (Threads.lean): The property fails: an element another thread appends while `l *= 1` runs is lost.
* `C66_mul_append_uaf` [pcq] (Threads.lean): The property fails: if another thread appends to a list of two or more elements while it is being repeated, often enough for the list to move, the next access is to freed memory.

### C67 Importing the package gives every documented class or raises, and can be repeated

*Claim.* import pyfastutil.ints, pyfastutil.objects or pyfastutil.unsafe binds every documented name to its class, or raises; it never binds only some of them, never ends the process, and keeps nothing of an attempt that raised. After an import that raised, an import during which nothing fails succeeds.

*Plan.* Model PyInit___pyfastutil, the fourteen inner PyInit functions, initBitonicSort and the three Python modules (Model/Import) over a process with sys.modules; every allocation may fail, a collection may run in every PyModule_Create. Invariant over histories of imports: the cached module maps names to their own classes, from 3.12 on all of them; closed form of the pending exception after the table (errAfter).

*Status: partial.* Proved after every history: an import that does not raise binds exactly the documented names. The first import exactly (iff): when it succeeds. From 3.12 on, after every history, an import during which nothing fails succeeds. Violated (negations): up to 3.11, a collection can make the library forget a failed part, and then no later import of the module that needs it succeeds; the memory of the sorting tables, if refused, ends the process; parts that could not be added are never freed (exactly which).

* `C67_all_or_raise` [pq] (Import.lean): C67, all or nothing: whatever was imported before and whatever fails at whichever point, an import that does not raise (or end the process) binds every documented name to its class and no other name.
* `C67_exact` [pcq] (Import.lean): C67, exactly: the first import that gets as far as the extension module succeeds if and only if the tables of the sort can be had, the extension module can be made, none of its fourteen parts fails with the exception still set at the end, and the parts the imported module needs do not fail. The exception is forgotten only up to 3.11.
* `C67_again_partial` [pcq] (Import.lean): C67 from 3.12 on: whatever failed before, as long as the process is still there, an import during which nothing fails succeeds.
* `C67_again_negation` [pcq] (Import.lean): C67 fails up to 3.11: if making the part for a class fails and a collection runs while a later part is made, the exception is forgotten and the incomplete module stays. From then on every import of the module that offers the class raises ImportError, whatever the machine grants. `g0` is the module whose import did this.
* `C67_abort_negation` [pq] (Import.lean): C67 fails: when the memory for the tables of the sort is refused, the import ends the process instead of raising.
* `C67_leak_negation` [pq] (Import.lean): C67 fails: an import that raises does not give back everything. The parts that were made but could not be added to the extension module stay, each time.

### C68 A failing length hint makes extend raise and take nothing

*Claim.* l.extend(x) and l += x, where asking x for its length (len(x) or x.__length_hint__()) raises, do what Python's list does: they raise that exception, take nothing from the iterator of x, add nothing to the list, and keep no reference. If asking works, the hint does not change the outcome.

*Plan.* Vocabulary for PyObject_LengthHint (VocabHint, CPython's contract), model of the paths of extend and += that use an iterator, with the items left in it (Model/LengthHint); iff with Python's behaviour when the hint fails, reduction to C03 and C33 when it works.

*Status: partial.* If asking works: proved that the outcome is that of any other iterator. If it fails: nothing is stored and the call raises (partial); exactly when it does what Python does (iff). Violated (negations): one item is taken from the iterator; ObjectArrayList never gives its reference back; StopIteration from the hint goes unnoticed if there are no items; linked lists do not ask at all. Iterators and conversions that run Python code while the exception is pending are not modelled. C68_taken: which items are taken when a call raises.

* `C68_hint_works` [pq] (LengthHint.lean): C68, int array lists: if asking for the hint works, `extend` and `+=` do with the items exactly what they do with those of any iterator (C03), on the list as the methods asked left it; if they return, the iterator is used up.
* `C68_taken` [pq] (LengthHint.lean): C68, int array lists, what is taken: if asking for the hint works and the call raises, then either the exception is that of converting an item, and that item and those before it are taken, or all items are and the exception is that of the iterator.
* `C68_hint_fails_partial` [p] (LengthHint.lean): C68, int array lists, for every element type: if asking for the hint fails, nothing is stored, whatever the items are: the list is as the methods asked left it. And the call raises, unless the hint raised StopIteration and there are no items. Missing: one item is taken from the iterator, and the exception may be another one (`C68_exact`): that of converting the item taken or, if there are none, that of the iterator.
* `C68_exact` [pq] (LengthHint.lean): C68, int array lists, exactly: if asking for the hint fails, the call does what Python's list does precisely if the iterator has no items left, ends without an exception of its own (or one like that of the hint), and the hint did not raise StopIteration.
* `C68_item_lost` [p] (LengthHint.lean): The negation for int array lists: a `__len__` that raises any exception but TypeError, and an item: the item is gone.
* `C68_stop_swallowed` [p] (LengthHint.lean): The negation for int array lists: a `__length_hint__` that raises StopIteration goes unnoticed if there are no items.
* `C68_ObjectArrayList_works` [pq] (LengthHint.lean): C68, ObjectArrayList: if asking works, as with any iterator (C33).
* `C68_ObjectArrayList_exact` [pq] (LengthHint.lean): C68, ObjectArrayList, exactly: if asking for the hint fails, the call does what Python's list does precisely if the iterator has no items left, ends without an exception of its own (or one like that of the hint), and the hint did not raise StopIteration.
* `C68_ObjectArrayList_leak` [p] (LengthHint.lean): The negation for ObjectArrayList: with a failing hint and an item, the item is taken from the iterator and a reference to it is never given back, although the list does not store it.
* `C68_linked_negation` [pq] (LengthHint.lean): The negation for IntLinkedList: no hint is asked for. Whatever the hint would have raised, `extend` and `+=` succeed if all the items are good, and append them all.

### C69 Unsafe, SIMD, SIMDLowAVX512 and ASM objects work in with statements and are given back once

*Claim.* with T() as x: p makes one object, binds x to that very object, runs p once, and lets every exception of p go on; calls of the constructor, __enter__ and __exit__ take the documented arguments and raise TypeError for others. Whatever the program does with the object inside and outside the statement, no object is used after it is gone, and each is given back exactly once, when no variable and no running with statement refers to it.

*Plan.* Programs as syntax trees (VocabWith); model of the four functions and of CPython's with statement with the references its bound methods hold (Model/With), using a freed object being a distinct outcome; invariant (reference count = variables + running with statements) by induction over programs, with the run without reference counts as specification; iff for single calls.

*Status: partial.* Proved for all programs: no use of an object that is gone, reference counts equal to the number of variables, each object given back exactly once. Proved for programs with the documented arguments: what they see and raise. Exactly when constructor and __exit__ calls do what their signatures say (iff). Violated (negations): the constructors take any arguments; __exit__ takes any number of positional arguments and refuses its own parameters by name. Subclasses written in Python are not modelled.

* `C69_balanced` [pcq] (With.lean): C69. Whatever a program does with objects of the four classes - with arguments or without, through nested `with` statements, exceptions, variables that are bound again or deleted inside the statement, `__enter__` and `__exit__` called by hand -, it never uses an object that is gone; afterwards the reference count of every object is the number of variables bound to it, and the objects given back, each once, are those made that no variable is bound to.
* `C69_with_partial` [pcq] (With.lean): C69. A program that gives no arguments to the constructors and three positional ones to `__exit__` sees and raises what it should: `with` binds its variable to the very object, runs the body once, and every exception of the body goes on. Missing: the other calls, for which it is false (below).
* `C69_make_exact` [pcq] (With.lean): C69. After any program, a constructor call does what its signature says exactly if it passes no arguments.
* `C69_exit_exact` [pcq] (With.lean): C69. After any program, a call of `__exit__` by hand does what its signature says exactly if it passes three positional arguments, or passes some by name that it must refuse.
* `C69_make_negation` [pcq] (With.lean): C69, deviation: `T(...)` with any arguments, by position or by name, makes an object, although `__init__` takes none.
* `C69_exit_negation` [pcq] (With.lean): C69, deviation: `__exit__` called by hand takes any number of positional arguments, and refuses its own parameters by name.

### C70 A method call on an Unsafe, SIMD or ASM object reaches the documented function or raises

*Claim.* x.name(*args, **kwargs) on an Unsafe, SIMD or ASM object goes on with its arguments if name is documented and the arguments fit the documented parameters; it raises TypeError, and has looked at none of them, if they do not fit, and AttributeError if there is no such method. Every documented method exists, and no call looks at arguments that were not passed.

*Plan.* Model the three method tables with their calling conventions and the checks of the functions (Model/Tools); the stubs as lists of names and parameters (Spec/Tools); compare the tables side by side in the kernel, and lift to all names and argument lists by lemmas about lookup and about each kind of entry.

*Status: partial.* Exact (iff) for all names and arguments; for Unsafe and SIMD without exceptions but __exit__. Violated (negations): the functions of ASM raise NotImplementedError away from Windows, before they look at the number of arguments; on Windows the three ...Fast functions look at an argument that may not be there; __exit__ does not count its arguments (C69).

* `C70_names` [pcq] (Tools.lean): C70. A name gives an AttributeError exactly if it is not documented, on every system and with all arguments.
* `C70_exact_partial` [pcq] (Tools.lean): C70. A call comes to what its stub says - the function goes on with its arguments if they fit, TypeError if they do not, AttributeError if there is no such method - exactly unless it `Deviates`.
* `C70_reached` [pcq] (Tools.lean): C70 without exceptions for the functions of Unsafe and SIMD: each is reached exactly with the documented number of positional arguments, and every other call is a TypeError.
* `C70_no_fault` [pcq] (Tools.lean): C70. No call of a method of Unsafe or SIMD by name looks at arguments that are not there.
* `C70_asm_negation` [pcq] (Tools.lean): C70, deviation: away from Windows `asm.run()`, `asm.run(code, 1)` and the like raise NotImplementedError rather than TypeError, and `asm.run(code)` does so too, which the stub does not mention.
* `C70_asm_fast_negation` [pcq] (Tools.lean): C70, deviation: on Windows `asm.runFast()`, `makeFunctionFast()` and `freeFunctionFast()` read an argument that is not there, and they take more than one.

## Testing the theorems against wrong programs

`seeded/LOG.jsonl` records, one line each, edits of the model as a realistic bug would make them (in a scratch copy), the claim the
edit breaks, the theorems and lemmas whose proofs then failed, the claims that were not caught and the theorems tightened because of
it. An edit that no theorem of the claim noticed was either shown not to make the English claim false (equivalent edit) or led to a
new or stronger theorem.

## Checking

`cd lean && lake build` builds everything (about five minutes on four cores). `MANIFEST.json` lists per property the status and the
exact theorem names.
