{"id": "C01", "title": "Integers read back from an int list are the integers that were stored", "statement": "Every integer in the element range that was stored in an IntArrayList, BigIntArrayList or IntLinkedList is returned, as an ordinary Python int of the same value, by indexing, slicing, iteration, pop() and to_list(), on every supported CPython version.", "quantifier": "all element values in the C range, all supported interpreter versions, all reading methods", "why_tests_cant": "Tests run on one interpreter with a handful of small positive values; the claim is about 2^32 / 2^64 values and three interpreter families.", "anchors": ["pyfastutil/src/utils/PythonUtils.h: PyFast_FromInt", "pyfastutil/src/ints/IntArrayList.cpp: IntArrayList_getitem, IntArrayList_pop, IntArrayList_to_list", "pyfastutil/src/ints/BigIntArrayList.cpp: BigIntArrayList_getitem"]}
{"id": "C02", "title": "A value outside the element range is never stored as a different value", "statement": "Adding an integer that does not fit the element type through the constructor, append, extend, insert, item or slice assignment raises an exception and no other integer appears in the list.", "quantifier": "all Python integers (unbounded), all writing methods", "why_tests_cant": "The set of unrepresentable integers is infinite; tests sample at most one or two.", "anchors": ["pyfastutil/src/ints/IntArrayList.cpp: IntArrayList_append, IntArrayList_extend, IntArrayList_insert, IntArrayList_setitem", "pyfastutil/src/ints/BigIntArrayList.cpp: BigIntArrayList_append"]}
{"id": "C03", "title": "An int array list behaves like a Python list over every operation history", "statement": "Starting from any constructed IntArrayList or BigIntArrayList, any sequence of append, extend, insert, pop, remove, index, count, in, item get/set/delete, slice read, contiguous slice assignment, reverse, resize, clear, copy and to_list returns the same results, raises the same exceptions and leaves the same contents as the same sequence on a Python list of the same integers.", "quantifier": "all finite histories of operations with all arguments, all list contents and lengths, all CPU feature combinations", "why_tests_cant": "Histories are unbounded; a bug can need a particular interleaving of growing, shrinking and negative indexing.", "anchors": ["pyfastutil/src/ints/IntArrayList.cpp: all IntArrayList_* methods", "pyfastutil/src/ints/BigIntArrayList.cpp: all BigIntArrayList_* methods"]}
{"id": "C04", "title": "Indexing an array list is safe and exact for every index", "statement": "Reading, assigning, deleting or popping at any Python index either addresses exactly the element Python's list would address or raises IndexError (OverflowError for pop with an index beyond the machine word) and changes nothing; memory outside the list is never touched.", "quantifier": "all list lengths and all integers as index, including ones beyond the machine word", "why_tests_cant": "Boundary behaviour must hold at every length/index pair.", "anchors": ["pyfastutil/src/ints/IntArrayList.cpp: IntArrayList_getitem, IntArrayList_setitem, IntArrayList_pop", "pyfastutil/src/ints/BigIntArrayList.cpp: BigIntArrayList_getitem", "pyfastutil/src/objects/ObjectArrayList.cpp: ObjectArrayList_getitem"]}
{"id": "C05", "title": "Search methods of int lists agree with Python's", "statement": "index(v, start, stop), count(v), v in l and remove(v) on an int list find the same positions and raise ValueError in the same cases as on a Python list holding the same integers, for every integer v and every start/stop.", "quantifier": "all contents, all integer values v (unbounded), all start/stop", "why_tests_cant": "v ranges over all integers and start/stop over all word-size values.", "anchors": ["pyfastutil/src/ints/IntArrayList.cpp: IntArrayList_index, IntArrayList_count, IntArrayList_contains, IntArrayList_remove", "pyfastutil/src/ints/BigIntArrayList.cpp: BigIntArrayList_index"]}
{"id": "C06", "title": "Reading a slice gives Python's slice", "statement": "l[a:b:c] returns the list of the l[p], in order, for exactly the positions p that Python's slice addresses, for every start, stop and non-zero step, and never touches memory outside the list.", "quantifier": "all contents and all triples start/stop/step including None, negative and out-of-range values", "why_tests_cant": "Three unbounded integer parameters times all lengths.", "anchors": ["pyfastutil/src/ints/IntArrayList.cpp: IntArrayList_getitem_slice", "pyfastutil/src/ints/BigIntArrayList.cpp: BigIntArrayList_getitem_slice", "pyfastutil/src/ints/IntLinkedList.cpp: IntLinkedList_getitem_slice", "pyfastutil/src/objects/ObjectArrayList.cpp: ObjectArrayList_getitem_slice", "pyfastutil/src/objects/ObjectLinkedList.cpp: ObjectLinkedList_getitem_slice"]}
{"id": "C07", "title": "Contiguous slice assignment on an int array list gives Python's result", "statement": "l[a:b] = s replaces exactly the addressed elements by the integers of s (shrinking or growing the list) for every a, b and sequence s, including s being l itself, and del l[a:b] deletes them.", "quantifier": "all contents, all a/b, all replacement lengths, aliasing with the list itself, deletion", "why_tests_cant": "The three length cases times aliasing times boundary positions cannot be enumerated.", "anchors": ["pyfastutil/src/ints/IntArrayList.cpp: IntArrayList_setitem_slice", "pyfastutil/src/ints/BigIntArrayList.cpp: BigIntArrayList_setitem_slice"]}
{"id": "C08", "title": "A failing assignment leaves an int list unchanged", "statement": "When item assignment, slice assignment, append, insert, remove, pop or resize on an int list raises, the contents are the same as before the call.", "quantifier": "all contents, arguments and failure positions", "why_tests_cant": "The failing element can be at any position of an arbitrarily long replacement.", "anchors": ["pyfastutil/src/ints/IntArrayList.cpp: IntArrayList_setitem_slice, IntArrayList_setitem", "pyfastutil/src/ints/BigIntArrayList.cpp: BigIntArrayList_setitem_slice"]}
{"id": "C09", "title": "from_range contains exactly the values of range()", "statement": "from_range(stop), from_range(start, stop) and from_range(start, stop, step) contain exactly the integers of Python's range() with the same arguments whenever those fit the element type.", "quantifier": "all start, stop and non-zero step in the machine word", "why_tests_cant": "Three unbounded integers; the existing tests only use steps that divide the distance.", "anchors": ["pyfastutil/src/ints/IntArrayList.cpp: IntArrayList_from_range", "pyfastutil/src/ints/BigIntArrayList.cpp: BigIntArrayList_from_range", "pyfastutil/src/ints/IntLinkedList.cpp: IntLinkedList_from_range", "pyfastutil/src/utils/PythonUtils.h: PyParse_EvalRange"]}
{"id": "C10", "title": "Concatenation l + other returns the concatenation", "statement": "l + other returns, for every pair of lists, a new list with the elements of l followed by those of other and leaves both operands unchanged.", "quantifier": "all pairs of contents, other being the same class or any Python list", "why_tests_cant": "The claim is about all pairs of lists and both dispatch paths.", "anchors": ["pyfastutil/src/ints/IntArrayList.cpp: IntArrayList_add", "pyfastutil/src/ints/BigIntArrayList.cpp: BigIntArrayList_add", "pyfastutil/src/ints/IntLinkedList.cpp: IntLinkedList_add", "pyfastutil/src/objects/ObjectArrayList.cpp: ObjectArrayList_add", "pyfastutil/src/objects/ObjectLinkedList.cpp: ObjectLinkedList_add", "pyfastutil/src/utils/PythonUtils.h: Py_CreateObj"]}
{"id": "C11", "title": "Repetition l * n returns n copies", "statement": "l * n (and n * l) returns a new list holding n copies of l, for every length and every n, on every CPU, without faulting.", "quantifier": "all lengths, all n, all CPU feature combinations", "why_tests_cant": "Faults depend on the residue of the length and the CPU features of the machine.", "anchors": ["pyfastutil/src/ints/IntArrayList.cpp: IntArrayList_mul, IntArrayList_rmul", "pyfastutil/src/ints/BigIntArrayList.cpp: BigIntArrayList_mul", "pyfastutil/src/utils/simd/SIMDUtils.h: simdMemCpyAligned", "pyfastutil/src/ints/IntLinkedList.cpp: IntLinkedList_mul", "pyfastutil/src/objects/ObjectArrayList.cpp: ObjectArrayList_mul"]}
{"id": "C12", "title": "In-place repetition l *= n leaves n copies", "statement": "l *= n leaves exactly n copies of the old contents in l, for every length and every n, touches no memory outside the list and terminates.", "quantifier": "all lengths, all n, all four list classes", "why_tests_cant": "Unbounded lengths and repetition counts; termination is not testable.", "anchors": ["pyfastutil/src/ints/IntArrayList.cpp: IntArrayList_imul", "pyfastutil/src/ints/BigIntArrayList.cpp: BigIntArrayList_imul", "pyfastutil/src/ints/IntLinkedList.cpp: IntLinkedList_imul", "pyfastutil/src/objects/ObjectArrayList.cpp: ObjectArrayList_imul", "pyfastutil/src/objects/ObjectLinkedList.cpp: ObjectLinkedList_imul"]}
{"id": "C13", "title": "In-place addition keeps the name bound to the list", "statement": "After l += other the name l still denotes the same list, now extended by the elements of other, whatever the class of other.", "quantifier": "all contents and all kinds of right operand", "why_tests_cant": "Depends on the dispatch on the operand class, for all contents.", "anchors": ["pyfastutil/src/ints/IntArrayList.cpp: IntArrayList_iadd", "pyfastutil/src/ints/IntLinkedList.cpp: IntLinkedList_iadd", "pyfastutil/src/objects/ObjectArrayList.cpp: ObjectArrayList_iadd", "pyfastutil/src/objects/ObjectLinkedList.cpp: ObjectLinkedList_iadd"]}
{"id": "C14", "title": "Comparison of int array lists is Python's lexicographic comparison", "statement": "For every two int array lists, and for an int array list against a Python list of in-range integers, ==, !=, <, <=, >, >= give the answer of comparing the corresponding Python lists; so < is a strict total order consistent with ==.", "quantifier": "all pairs of contents of all lengths", "why_tests_cant": "Order axioms (totality, transitivity) range over pairs and triples of unbounded lists.", "anchors": ["pyfastutil/src/ints/IntArrayList.cpp: IntArrayList_compare, IntArrayList_eq, IntArrayList_lt, IntArrayList_le, IntArrayList_gt, IntArrayList_ge", "pyfastutil/src/ints/BigIntArrayList.cpp: BigIntArrayList_compare"]}
{"id": "C15", "title": "Comparison of linked lists is Python's lexicographic comparison", "statement": "For every two IntLinkedLists, and for one against a Python list of in-range integers, the six comparison operators give Python's list comparison.", "quantifier": "all pairs of contents of all lengths", "why_tests_cant": "As C14.", "anchors": ["pyfastutil/src/ints/IntLinkedList.cpp: IntLinkedList_compare, IntLinkedList_lt, IntLinkedList_le, IntLinkedList_gt, IntLinkedList_ge"]}
{"id": "C16", "title": "sort() without key leaves a sorted permutation", "statement": "l.sort(reverse=r) on an IntArrayList or BigIntArrayList leaves a permutation of the old contents in non-decreasing (r true: non-increasing) order, for every contents and every CPU.", "quantifier": "all contents and lengths, both directions, all CPU feature combinations", "why_tests_cant": "Depends on the CPU of the machine and on lengths beyond the tests' seven elements.", "anchors": ["pyfastutil/src/utils/simd/BitonicSort.cpp: simdsort, sort8Epi32AVX2, doSingleMerge, mergeSortedBlocks", "pyfastutil/src/ints/IntArrayList.cpp: IntArrayList_sort", "pyfastutil/src/ints/BigIntArrayList.cpp: BigIntArrayList_sort"]}
{"id": "C17", "title": "The fallback merge sort sorts", "statement": "On a CPU without AVX2 and AVX-512, sort() of more than 5000 elements (the timsort path) leaves a sorted permutation, never reads or writes outside the data, and terminates.", "quantifier": "all contents of all lengths", "why_tests_cant": "Run structure, galloping and stack collapse depend on the data in unboundedly many ways; this algorithm family had a real invariant bug that tests missed for a decade.", "anchors": ["pyfastutil/src/utils/include/TimSort.h: gfx::timsort, TimSort::sort, mergeCollapse, mergeLo, mergeHi, gallopLeft, gallopRight"]}
{"id": "C18", "title": "reverse() reverses", "statement": "l.reverse() on IntArrayList, BigIntArrayList, ObjectArrayList leaves exactly the old elements in the opposite order for every length on every CPU.", "quantifier": "all contents, lengths and CPU feature combinations", "why_tests_cant": "Each SIMD width has its own block boundaries; all lengths modulo all widths must work.", "anchors": ["pyfastutil/src/utils/include/qreverse.hpp: qReverse<4>, qReverse<8>", "pyfastutil/src/ints/IntArrayList.cpp: IntArrayList_reverse", "pyfastutil/src/ints/BigIntArrayList.cpp: BigIntArrayList_reverse", "pyfastutil/src/objects/ObjectArrayList.cpp: ObjectArrayList_reverse"]}
{"id": "C19", "title": "repr() of an int list is the repr of the Python list", "statement": "repr(l) and str(l) of an int list equal repr(list) of the same integers.", "quantifier": "all contents", "why_tests_cant": "All lengths and all values.", "anchors": ["pyfastutil/src/ints/IntArrayList.cpp: IntArrayList_repr", "pyfastutil/src/ints/BigIntArrayList.cpp: BigIntArrayList_repr", "pyfastutil/src/ints/IntLinkedList.cpp: IntLinkedList_repr"]}
{"id": "C20", "title": "Forward iteration of an array list under arbitrary modification", "statement": "A forward iterator over an IntArrayList, BigIntArrayList or ObjectArrayList, interleaved in any way with modifications of the list, behaves as Python's list iterator (the i-th call yields the element at position i at that moment, or stops when i is not a valid position), never touches invalid memory, and on an unmodified list yields exactly the elements in order.", "quantifier": "all interleavings of next() with list modifications", "why_tests_cant": "Interleavings are unbounded.", "anchors": ["pyfastutil/src/ints/IntArrayListIter.cpp: IntArrayListIter_next", "pyfastutil/src/ints/BigIntArrayListIter.cpp", "pyfastutil/src/objects/ObjectArrayListIter.cpp"]}
{"id": "C21", "title": "Reverse iteration of an array list under arbitrary modification", "statement": "reversed(l) yields the elements last to first on an unmodified list; interleaved with modifications it never touches memory outside the list.", "quantifier": "all interleavings of next() with list modifications", "why_tests_cant": "Interleavings are unbounded and the failure is a silent out-of-bounds read.", "anchors": ["pyfastutil/src/ints/IntArrayListIter.cpp: IntArrayListIter_next, IntArrayListIter_create"]}
{"id": "C22", "title": "A buffer obtained from an int array list stays valid", "statement": "A memoryview (buffer) exported by an IntArrayList or BigIntArrayList refers to live memory of the reported length until it is released, whatever is done to the list in the meantime.", "quantifier": "all histories of list operations while a buffer is held", "why_tests_cant": "Use after reallocation depends on capacity growth at some point of an arbitrary history.", "anchors": ["pyfastutil/src/ints/IntArrayList.cpp: IntArrayList_get_buffer", "pyfastutil/src/ints/BigIntArrayList.cpp: BigIntArrayList_get_buffer"]}
{"id": "C23", "title": "copy() is independent of the original", "statement": "After c = l.copy(), c has the elements of l and no later operation on one of the two changes the other.", "quantifier": "all contents and all histories on both lists", "why_tests_cant": "Independence quantifies over every later history.", "anchors": ["pyfastutil/src/ints/IntArrayList.cpp: IntArrayList_copy", "pyfastutil/src/ints/IntLinkedList.cpp: IntLinkedList_copy"]}
{"id": "C24", "title": "An int linked list behaves like a Python list over every operation history", "statement": "Any history of append, extend, insert, pop, remove, index, count, in, item get/set/delete, slice read, reverse, clear, copy, to_list on an IntLinkedList returns the results and leaves the contents that a Python list would, without touching freed memory.", "quantifier": "all finite histories with all arguments", "why_tests_cant": "As C03, plus node lifetime.", "anchors": ["pyfastutil/src/ints/IntLinkedList.cpp: all IntLinkedList_* methods", "pyfastutil/src/utils/Utils.h: at"]}
{"id": "C25", "title": "pop(i) of a linked list returns the removed element", "statement": "pop(i) with any valid index returns the element at that index and removes exactly it, without reading freed memory.", "quantifier": "all contents and all valid indices", "why_tests_cant": "Reading freed memory usually still returns the expected value in a test.", "anchors": ["pyfastutil/src/ints/IntLinkedList.cpp: IntLinkedList_pop", "pyfastutil/src/objects/ObjectLinkedList.cpp: ObjectLinkedList_pop"]}
{"id": "C26", "title": "Positional lookup in a linked list reaches the right node", "statement": "For every length and position, the node reached (walking from the nearer end) is the one at that position, and it never walks past either end.", "quantifier": "all lengths and positions", "why_tests_cant": "Off-by-one in the half-way switch shows only at particular length/position pairs.", "anchors": ["pyfastutil/src/utils/Utils.h: at"]}
{"id": "C27", "title": "Iterating an unmodified linked list", "statement": "iter(l) and reversed(l) of an unmodified IntLinkedList or ObjectLinkedList yield exactly the elements first to last and last to first.", "quantifier": "all contents and lengths", "why_tests_cant": "All lengths.", "anchors": ["pyfastutil/src/ints/IntLinkedListIter.cpp: IntLinkedListIter_next, IntLinkedListIter_updateCache", "pyfastutil/src/objects/ObjectLinkedListIter.cpp"]}
{"id": "C28", "title": "Iterating a linked list while it is modified", "statement": "Interleaving next() of a linked-list iterator with any modification of the list never dereferences a freed node, and each call yields the element at the iterator's current position as Python's list iterator would.", "quantifier": "all interleavings of next() with all modifying methods", "why_tests_cant": "The stale-node window depends on which methods were called between two next() calls.", "anchors": ["pyfastutil/src/ints/IntLinkedListIter.cpp: IntLinkedListIter_updateCache", "pyfastutil/src/ints/IntLinkedList.cpp: IntLinkedList_setitem, IntLinkedList_clear, IntLinkedList_iadd, modCount"]}
{"id": "C29", "title": "Object lists keep reference counts balanced", "statement": "Every operation on an ObjectArrayList or ObjectLinkedList changes each object's reference count by exactly the change in the number of references held by the list and the caller; so no element can be freed while the list holds it and nothing leaks when the list dies.", "quantifier": "all histories of operations, all multisets of objects, aliasing of elements", "why_tests_cant": "A missing INCREF is invisible until the object happens to be freed; a leak is invisible always.", "anchors": ["pyfastutil/src/objects/ObjectArrayList.cpp: all ObjectArrayList_* methods", "pyfastutil/src/objects/ObjectLinkedList.cpp: all ObjectLinkedList_* methods", "pyfastutil/src/utils/PythonUtils.h: SAFE_DECREF, PyFast_INCREF, PyFast_DECREF"]}
{"id": "C30", "title": "Object lists search by equality", "statement": "index, count, remove and in of an object list find elements by Python equality (identity or ==), as a Python list does.", "quantifier": "all contents, all objects, all equality relations", "why_tests_cant": "Equality is user-defined; small cached ints hide identity comparison in tests.", "anchors": ["pyfastutil/src/objects/ObjectArrayList.cpp: ObjectArrayList_index, ObjectArrayList_count, ObjectArrayList_remove, ObjectArrayList_contains", "pyfastutil/src/objects/ObjectLinkedList.cpp: ObjectLinkedList_index"]}
{"id": "C31", "title": "Comparison of object lists is Python's lexicographic comparison", "statement": "==, !=, <, <=, >, >= between object lists (or with Python sequences) give the comparison Python's list gives for the same elements.", "quantifier": "all pairs of contents and all element comparison relations", "why_tests_cant": "As C14 with user-defined comparison.", "anchors": ["pyfastutil/src/objects/ObjectArrayList.cpp: ObjectArrayList_lt, ObjectArrayList_le, ObjectArrayList_gt, ObjectArrayList_ge, ObjectArrayList_eq", "pyfastutil/src/objects/ObjectLinkedList.cpp: ObjectLinkedList_lt"]}
{"id": "C32", "title": "Slice assignment to an object list gives Python's result", "statement": "l[a:b] = s on an ObjectArrayList or ObjectLinkedList (and l[a:b:c] = s of equal length) replaces exactly the addressed elements, owns references to the new ones and releases the old ones, including s being l itself.", "quantifier": "all contents, slices, replacements and aliasing", "why_tests_cant": "Lifetime errors depend on the length case and on aliasing.", "anchors": ["pyfastutil/src/objects/ObjectArrayList.cpp: ObjectArrayList_setitem_slice", "pyfastutil/src/objects/ObjectLinkedList.cpp: ObjectLinkedList_setitem_slice"]}
{"id": "C33", "title": "An object list behaves like a Python list over every operation history", "statement": "Any history of append, extend, insert, pop, item get/set/delete, slice read, reverse, clear, copy, to_list on an object list returns the objects and leaves the contents that a Python list would.", "quantifier": "all finite histories with all objects", "why_tests_cant": "As C03.", "anchors": ["pyfastutil/src/objects/ObjectArrayList.cpp: all ObjectArrayList_* methods", "pyfastutil/src/objects/ObjectLinkedList.cpp: all ObjectLinkedList_* methods"]}
{"id": "C34", "title": "sort(key) and object sort give a stable sorted permutation", "statement": "Sorting an object list (or an int list with a key) by a comparison that is a strict weak order leaves a permutation that is sorted, with equal elements in their original order, both for reverse false and true.", "quantifier": "all contents, lengths and strict weak orders, both directions", "why_tests_cant": "The merge pattern depends on the data; stability needs equal elements at every possible merge boundary.", "anchors": ["pyfastutil/src/utils/include/CPythonSort.c: CPython_sort, count_run, binarysort, merge_lo, merge_hi, merge_at, gallop_left, gallop_right", "pyfastutil/src/objects/ObjectArrayList.cpp: ObjectArrayList_sort", "pyfastutil/src/ints/IntArrayList.cpp: IntArrayList_sort"]}
{"id": "C35", "title": "Sorting with a misbehaving comparison never loses elements", "statement": "For every comparison function - inconsistent, stateful or raising at any point - the object sort terminates, never reads or writes outside the array or its work area, and leaves a permutation of the elements; if the comparison raises, the exception propagates.", "quantifier": "all comparison oracles, including every possible raising point", "why_tests_cant": "The comparison is an arbitrary stateful program.", "anchors": ["pyfastutil/src/utils/include/CPythonSort.c: merge_lo, merge_hi, binarysort, count_run, found_new_run, merge_force_collapse"]}
{"id": "C36", "title": "The merge stack of the object sort cannot overflow", "statement": "While sorting any array whose length fits Py_ssize_t the number of pending runs never exceeds the fixed capacity of the pending-run table.", "quantifier": "all lengths and all run structures", "why_tests_cant": "Overflow would need astronomically large or adversarial inputs.", "anchors": ["pyfastutil/src/utils/include/CPythonSort.c: found_new_run, powerloop, MAX_MERGE_PENDING"]}
{"id": "C37", "title": "A key function may not corrupt the list being sorted", "statement": "If key or comparison callbacks (or another thread, while the sort has released the interpreter lock) modify the list during sort(), the program keeps accessing only live memory.", "quantifier": "all callback behaviours and thread schedules", "why_tests_cant": "Depends on a schedule.", "anchors": ["pyfastutil/src/ints/IntArrayList.cpp: IntArrayList_sort (Py_BEGIN_ALLOW_THREADS)", "pyfastutil/src/utils/include/CPythonSort.c: CPython_sort", "pyfastutil/src/objects/ObjectArrayList.cpp: ObjectArrayList_sort"]}
{"id": "C38", "title": "SIMD.memcpyX copies exactly count elements", "statement": "SIMD.memcpy<Type>(from, to, count) and the Aligned variants on aligned addresses make the destination's first count elements equal to the source's and change no other byte, for every count, element size and CPU.", "quantifier": "all counts, element sizes, memory contents and CPU feature combinations", "why_tests_cant": "All residues of the count modulo every block size.", "anchors": ["pyfastutil/src/utils/simd/SIMDUtils.h: simdMemCpy, simdMemCpyAligned", "pyfastutil/src/unsafe/SIMD.cpp: SIMD_memcpy, SIMD_memcpyAligned", "pyfastutil/src/utils/memory/FastMemcpy.h: fast_memcpy"]}
{"id": "C39", "title": "SIMD.reverseX reverses elements of every width", "statement": "SIMD.reverse<Type>(ptr, count) leaves the count elements at ptr in opposite order with each element's bytes intact, for every element width and CPU.", "quantifier": "all counts, element widths 1/2/4/8/16, contents and CPU feature combinations", "why_tests_cant": "Wrong lane order appears only for particular widths, counts and CPUs.", "anchors": ["pyfastutil/src/utils/include/qreverse.hpp: qReverse<1>, qReverse<2>, qReverse<4>, qReverse<8>, qReverse<16>", "pyfastutil/src/unsafe/SIMD.cpp: SIMD_reverse"]}
{"id": "C40", "title": "A reported SIMD feature can be used", "statement": "If SIMD.isAVX512Supported() / isAVX2Supported() / isSSE41Supported() reports true, then the instructions the library executes on that path are supported by the CPU and enabled by the operating system.", "quantifier": "all CPUID / XCR0 states", "why_tests_cant": "The claim is about machines the tests do not run on.", "anchors": ["pyfastutil/src/utils/simd/SIMDHelper.cpp", "pyfastutil/src/utils/include/qreverse.hpp"]}
{"id": "C41", "title": "Unsafe.set then Unsafe.get returns the bytes", "statement": "After Unsafe.set(address, data), Unsafe.get(address, len(data)) returns data, and every byte outside [address, address+len(data)) is unchanged; memcpy between disjoint ranges and memset have the corresponding effect; a call that raises changes nothing.", "quantifier": "all addresses inside live blocks, all byte strings, all memory contents", "why_tests_cant": "All contents and overlaps.", "anchors": ["pyfastutil/src/unsafe/Unsafe.cpp: Unsafe_get, Unsafe_set, Unsafe_memcpy, Unsafe_memset"]}
{"id": "C42", "title": "Unsafe allocation calls match the C contract", "statement": "malloc/calloc/realloc return the address of a live block of the requested size or raise MemoryError; calloc's block is zero, realloc keeps the common prefix; an address from one malloc is freed exactly once; for size 0 no error is reported for a success.", "quantifier": "all histories of allocation calls and sizes", "why_tests_cant": "Histories and sizes are unbounded.", "anchors": ["pyfastutil/src/unsafe/Unsafe.cpp: Unsafe_malloc, Unsafe_calloc, Unsafe_realloc, Unsafe_free"]}
{"id": "C43", "title": "as_object(get_address(x)) gives back x safely", "statement": "Unsafe.as_object(Unsafe.get_address(x)) is x and leaves the reference count balanced, so x lives as long as some name refers to it.", "quantifier": "all objects and all histories of such calls", "why_tests_cant": "The use after free appears only after later garbage collection.", "anchors": ["pyfastutil/src/unsafe/Unsafe.cpp: Unsafe_get_address, Unsafe_as_object"]}
{"id": "C44", "title": "setAVX vectors store the arguments in intrinsic order", "statement": "SIMD.setAVX512Vector32/16/8 and setAVX2Vector32/16/8 store lane i of the vector = the i-th last value argument, for every value, or raise and store nothing when an argument is not a representable integer.", "quantifier": "all argument tuples", "why_tests_cant": "2^512 vectors.", "anchors": ["pyfastutil/src/unsafe/SIMD.cpp: SIMD_setAVX512Vector32, SIMD_setAVX2Vector32", "pyfastutil/src/utils/PythonUtils.h: PyFast_AsInt, PyFast_AsShort, PyFast_AsChar"]}
{"id": "C45", "title": "ASM function registry never blocks", "statement": "In every history of makeFunction and freeFunction calls, with known or unknown addresses, every call returns or raises; the registry lock is free between calls.", "quantifier": "all histories of calls and addresses", "why_tests_cant": "A lock leaked on an error path hangs a later call.", "anchors": ["pyfastutil/src/unsafe/ASM.cpp: ASM_makeFunction, ASM_freeFunction"]}
{"id": "C46", "title": "The hash table is a finite map", "statement": "Any history of insertions, lookups and erasures on the hash map used for the function registry and IntIntHashMap behaves as a finite map: a lookup returns the last value stored for the key if it was not erased since.", "quantifier": "all histories, keys, hash functions and table sizes", "why_tests_cant": "Robin-hood displacement and backward shift interact in unboundedly many ways, under all collisions.", "anchors": ["pyfastutil/src/utils/include/UnorderedDense.h: table::do_try_emplace, do_find, do_erase, increase_size"]}
{"id": "C47", "title": "resize(n) keeps the prefix and pads with zeros", "statement": "After l.resize(n), n >= 0, len(l) == n, the first min(n, old length) elements are the old ones and all further ones are 0; for negative or unrepresentable n a ValueError is raised and nothing changes.", "quantifier": "all contents and all integers n", "why_tests_cant": "All lengths and sizes.", "anchors": ["pyfastutil/src/ints/IntArrayList.cpp: IntArrayList_resize", "pyfastutil/src/ints/BigIntArrayList.cpp: BigIntArrayList_resize"]}
{"id": "C48", "title": "Conversions used by key sorting and SIMD setters preserve values", "statement": "Converting a Python int to a C int / short / char in the library's fast paths yields its value whenever it is representable, on every supported interpreter.", "quantifier": "all representable values, all interpreter versions", "why_tests_cant": "The digit layout differs by interpreter and the failing values start at 2^15 or 2^30.", "anchors": ["pyfastutil/src/utils/PythonUtils.h: PyFast_AsInt, PyFast_AsShort, PyFast_AsChar"]}
{"id": "C49", "title": "Constructing a list from an iterable gives its elements", "statement": "IntArrayList(it), BigIntArrayList(it), IntLinkedList(it) contain exactly the integers of it in order for every iterable of representable integers; if an element is not convertible an exception is raised.", "quantifier": "all iterables", "why_tests_cant": "All lengths and failure positions.", "anchors": ["pyfastutil/src/ints/IntArrayList.cpp: IntArrayList_init", "pyfastutil/src/ints/BigIntArrayList.cpp: BigIntArrayList_init", "pyfastutil/src/ints/IntLinkedList.cpp: IntLinkedList_init"]}
{"id": "C50", "title": "Thread pool runs each submitted task", "statement": "Every task submitted to the scheduled thread pool before shutdown is executed exactly once and its captured state is valid when it runs.", "quantifier": "all schedules of submitters and workers", "why_tests_cant": "Depends on the schedule.", "anchors": ["pyfastutil/src/utils/thread/ScheduledThreadPool.h: submit", "pyfastutil/src/utils/thread/ScheduledThreadPool.cpp"]}
{"id": "C51", "title": "AVX-512 bindings call the documented intrinsic", "statement": "Every method of SIMDLowAVX512 calls the C intrinsic named in its documentation with the values its arguments stand for (vectors and masks by address, numbers and pointers by value), in the documented order, stores the result at __result and changes nothing else; a wrong number of arguments raises TypeError; the methods marked as unsupported, and only they, raise NotImplementedError.", "quantifier": "all 1383 methods, all arguments, all memory contents, all interpreters, whatever the intrinsics compute", "why_tests_cant": "More than a thousand methods times all memory contents and arguments; the hardware is needed to run any of them.", "anchors": ["pyfastutil/src/unsafe/SIMDLowAVX512.cpp", "pyfastutil/unsafe/SIMDLowAVX512.pyi"]}
{"id": "C52", "title": "Sorting compares with Python's <", "statement": "The object sort, which inspects the keys first and then uses a comparison specialised to them, orders them exactly as Python's < does: same answers, same exceptions, same side effects, for keys of any types, mixed or not, tuples and tuples of tuples included; a specialised comparison is never applied to objects it is not made for, even if classes change during the sort. In particular ints are sorted by value, strings by code points, floats by size, tuples of ints lexicographically.", "quantifier": "all lists of keys of all types, all classes and their methods, all interpreters, key functions and orders", "why_tests_cant": "The choice depends on every key of the list at once, and the wrong comparison for one mixed list out of all reads memory as another type.", "anchors": ["pyfastutil/src/utils/include/CPythonSort.c: CPython_sort (pre-sort check), unsafe_object_compare, unsafe_latin_compare, unsafe_long_compare, unsafe_float_compare, unsafe_tuple_compare, safe_object_compare"]}
{"id": "C53", "title": "A request the machine cannot meet raises and leaves the list as it was", "statement": "When a call of an IntArrayList, BigIntArrayList or IntLinkedList needs more memory than the machine gives it, or more elements than the container can have, it raises an exception and the list has the elements it had before; when the memory is granted, the call does what it does with unlimited memory. It never ends the process.", "quantifier": "all methods, contents, arguments, announced lengths, and all machines (which requests are refused may depend on size and history)", "why_tests_cant": "Refusals depend on the machine and its history; sizes near 2^60 cannot be tried.", "anchors": ["pyfastutil/src/ints/IntArrayList.cpp: append, extend, iadd, insert, resize, setitem_slice, mul, imul, copy, init", "pyfastutil/src/ints/BigIntArrayList.cpp: the same functions", "pyfastutil/src/ints/IntLinkedList.cpp: append, extend, iadd, insert, setitem_slice, mul, imul, copy, init, from_range", "pyfastutil/src/utils/memory/AlignedAllocator.h: AlignedAllocator::allocate"]}
{"id": "C54", "title": "Lists live as long as they are referenced and give everything back once", "statement": "A list, and every object in it, stays valid as long as Python code or another living list refers to it; a call returns and leaves the elements a Python list would have, whatever was created, initialised, copied, nested and dropped before; once nothing refers to an object it is destroyed and its storage is returned, exactly once, so that nothing is left when the last reference is gone.", "quantifier": "all histories of creation (also __new__ without __init__, and repeated __init__), use and release, over all the list classes, nested and shared to any depth", "why_tests_cant": "Reference counts go wrong by histories, not by calls: an extra or missing count shows only when the last of several references goes, in another object.", "anchors": ["pyfastutil/src/ints/IntArrayList.cpp: IntArrayList_init, IntArrayList_dealloc", "pyfastutil/src/ints/IntLinkedList.cpp: IntLinkedList_init, IntLinkedList_dealloc", "pyfastutil/src/objects/ObjectArrayList.cpp: ObjectArrayList_init, ObjectArrayList_dealloc, clear, copy, pop, append", "pyfastutil/src/objects/ObjectLinkedList.cpp: the same functions", "pyfastutil/src/utils/PythonUtils.h: SAFE_DECREF, PyFast_DECREF"]}
{"id": "C55", "title": "Python code that runs inside a call may raise or use the list", "statement": "When an argument, an iterator or a sequence handed to an int list (IntArrayList, BigIntArrayList, IntLinkedList) is an object of a user class, the methods it defines (__index__, __next__, __len__, __getitem__) may run any Python code, including code that changes the very list or raises: the exception comes out of the call, and otherwise the call does what it would do with plain ints on the list as that code left it. The process does not crash.", "quantifier": "all lists, all code of user classes (as arbitrary functions of the list's elements, exceptions included), iterators of any length", "why_tests_cant": "The list must survive code that does not exist yet, at every point where a call can run it.", "anchors": ["pyfastutil/src/ints/IntArrayList.cpp: append, extend, index, count, insert, remove, getitem, getitem_slice, setitem, setitem_slice, iadd, eq, ne, lt, le, gt, ge", "pyfastutil/src/ints/BigIntArrayList.cpp: the same functions", "pyfastutil/src/ints/IntLinkedList.cpp: the same functions"]}
{"id": "C56", "title": "Methods of the elements of an object list may use the list", "statement": "The elements of an object list may define __del__, __eq__ and __ne__ in Python, and these may run any code, including code that reads or changes the very list. clear, del l[i], slice assignment, == and != then behave as for a Python list: the element taken out is no longer in the list when its __del__ runs, exactly the elements nothing else refers to are destroyed, once each and in order, comparisons answer what the elements answer, and the process survives.", "quantifier": "all contents (repeated elements included), all counts of references from elsewhere, both object lists, all methods of the elements", "why_tests_cant": "Finalisers run at the last reference only, so that the fault depends on who else holds the element and on the spare capacity of the moment.", "anchors": ["pyfastutil/src/objects/ObjectArrayList.cpp: ObjectArrayList_clear, ObjectArrayList_setitem, ObjectArrayList_setitem_slice, ObjectArrayList_eq, ObjectArrayList_ne", "pyfastutil/src/objects/ObjectLinkedList.cpp: ObjectLinkedList_clear, ObjectLinkedList_setitem, ObjectLinkedList_eq, ObjectLinkedList_ne", "pyfastutil/src/utils/PythonUtils.h: SAFE_DECREF, PyFast_DECREF"]}
{"id": "C57", "title": "Text passes whole through fputs and fgets", "statement": "Unsafe.fputs puts the UTF-8 text of its argument on standard output, whole and in call order, and after fflush everything has left the process; a value that is no text raises and writes nothing. Repeated calls of Unsafe.fgets(n) return the text on standard input without loss or repetition, each time the next line or, if it does not fit, the next n - 1 characters, and an empty string at the end; a size that is not positive raises, and memory use does not grow with the number of calls.", "quantifier": "all strings, all input texts, all positive buffer sizes, all histories of calls, whenever the C library empties its buffer", "why_tests_cant": "Depends on where a line, a multi-byte character or a zero character meets the end of the buffer; leaks show only after very many calls.", "anchors": ["pyfastutil/src/unsafe/Unsafe.cpp: Unsafe_fputs, Unsafe_fflush, Unsafe_fgets", "pyfastutil/unsafe/Unsafe.pyi: fputs, fflush, fgets"]}
{"id": "C58", "title": "Calling a C function delivers its result", "statement": "Unsafe.callVoid, callInt, callLongLong and call(func, result, size) run the function at the given address once; callInt and callLongLong return its value as the Python int of the same value; call stores the size bytes of its value at result and changes nothing else, size 0 meaning no value; arguments that are no addresses, and wrong numbers of arguments, raise before anything is called.", "quantifier": "all functions (arbitrary effects on memory, arbitrary register contents), all addresses, sizes and interpreters", "why_tests_cant": "Arbitrary machine code and 2^64 return values; the faulty sizes and values read as plausible numbers.", "anchors": ["pyfastutil/src/unsafe/Unsafe.cpp: Unsafe_callVoid, Unsafe_callInt, Unsafe_callLongLong, Unsafe_call"]}
{"id": "C59", "title": "repr of an object list is the repr of the Python list", "statement": "repr(l) and str(l) of an object list give the text of a Python list with the same elements, for elements of any kind, other object lists included at any depth; a list that contains itself, directly or through others, is shown as [...] in that place; an exception of an element's __repr__, or RecursionError for too deep a nesting, comes out of the call; and an element whose __repr__ changes the list does no harm.", "quantifier": "all elements, all nestings and cycles of both object lists, all limits on nested calls, all code in __repr__ methods", "why_tests_cant": "Unbounded nesting and arbitrary code of the elements, which may change the list between two steps of the loop.", "anchors": ["pyfastutil/src/objects/ObjectArrayList.cpp: ObjectArrayList_repr, ObjectArrayList_str", "pyfastutil/src/objects/ObjectLinkedList.cpp: ObjectLinkedList_repr, ObjectLinkedList_str"]}
{"id": "C60", "title": "A list of objects that cannot get memory raises, keeps its elements and loses no references", "statement": "When the machine refuses memory, a call on an object list raises, the list is what it was before, and every object is counted as often as before; calls for which there is enough memory do what they do with unlimited memory. A constructor that fails leaves no trace: the objects it was given are counted as before.", "quantifier": "all machines (any pattern of granted and refused requests), all contents and reference counts, all calls of ObjectArrayList and ObjectLinkedList, all histories", "why_tests_cant": "Refusals cannot be provoked at every single request of a program, and a leaked reference shows in nothing but memory use.", "anchors": ["pyfastutil/src/objects/ObjectArrayList.cpp: ObjectArrayList_init, append, insert, resize, copy, extend, iadd, mul, imul, setitem_slice", "pyfastutil/src/objects/ObjectLinkedList.cpp: ObjectLinkedList_init, append, insert, copy, extend, iadd, mul, imul, setitem_slice"]}
{"id": "C61", "title": "Calls on int lists take and release references exactly", "statement": "After any call on an int list or on one of its iterators, successful or not, every Python object is counted as often as before plus one for each reference the caller has received; objects made on the way and not returned are freed. So a program that lets go of all results leaves no object behind, however many calls it makes.", "quantifier": "all calls with all operands and however they end, all reference counts, all histories in which the caller takes and releases references in between; IntArrayList, BigIntArrayList, IntLinkedList, constructors, sort with any key function, iterators", "why_tests_cant": "A leaked or lost reference shows in no result; it shows after millions of calls as memory use, or as a crash elsewhere.", "anchors": ["pyfastutil/src/ints/IntArrayList.cpp: IntArrayList_init, extend, iadd, add, to_list, setitem_slice, sort, eq, lt", "pyfastutil/src/ints/BigIntArrayList.cpp: the same", "pyfastutil/src/ints/IntLinkedList.cpp: to_list, getitem, getitem_slice, add, eq, lt, extend", "pyfastutil/src/ints/IntArrayListIter.cpp", "pyfastutil/src/ints/IntLinkedListIter.cpp", "pyfastutil/src/utils/PythonUtils.h: SAFE_DECREF"]}
{"id": "C62", "title": "A constructor call yields the list of its argument's elements or raises", "statement": "IntArrayList(...), BigIntArrayList(...), IntLinkedList(...), ObjectArrayList(...) and ObjectLinkedList(...), called with any positional and keyword arguments, bind them as a Python function with the documented parameters would and yield the list of the elements of the iterable (the empty list without one); a call that does not fit the parameters raises TypeError and yields no list; exceptions of the code of the arguments and of their elements come out of the call; and whatever that code does, to the given Python list too, only memory that is alive is read.", "quantifier": "all argument lists with any names and objects, all code run by arguments, iterators and elements (on any state, the given list included), all sizes to reserve", "why_tests_cant": "Arbitrary code between two steps of a loop and arbitrary call shapes; the freed memory that is read usually still holds the old pointers.", "anchors": ["pyfastutil/src/ints/IntArrayList.cpp: parseArgs, IntArrayList_init", "pyfastutil/src/ints/BigIntArrayList.cpp: BigIntArrayList_init", "pyfastutil/src/ints/IntLinkedList.cpp: IntLinkedList_init", "pyfastutil/src/objects/ObjectArrayList.cpp: ObjectArrayList_init", "pyfastutil/src/objects/ObjectLinkedList.cpp: ObjectLinkedList_init"]}
{"id": "C63", "title": "SIMD copies and reversals act on exactly the memory they are given", "statement": "SIMD.memcpyX(src, dst, n), memcpyXAligned(src, dst, n) and reverseX(p, n) return None and leave the n elements of type X from src at dst, or the n elements at p in opposite order, where an element has the size of the type in the name; no other byte changes. A wrong number of arguments raises TypeError, and an address or number of elements that is none (not an int, negative, 2^64 or more) raises; a call that raises touches no memory.", "quantifier": "all 29 element types, all memories, addresses, numbers of elements, arguments of any kind, all CPU feature sets (x86-64, LP64)", "why_tests_cant": "Every length and alignment takes another mix of instructions, on every kind of CPU; a byte written outside the range is not looked at by a test.", "anchors": ["pyfastutil/src/unsafe/SIMD.cpp: SIMD_memcpy, SIMD_memcpyAligned, SIMD_reverse, DEFINE_SIMD_FUNCTION", "pyfastutil/src/utils/simd/SIMDUtils.h: simdMemCpy, simdMemCpyAligned, simdReverse", "pyfastutil/unsafe/SIMD.pyi"]}
{"id": "C64", "title": "A method call binds its arguments as Python's list does", "statement": "l.name(*args, **kwargs) for any method of a list class and any positional and keyword arguments asks for what the method of Python's list of that name is documented to do with these arguments; a call that does not fit the documented parameters raises TypeError and changes nothing; names that list does not have raise AttributeError unless the library documents them. Together with C03 and C24 this says of calls on int lists by name exactly when their outcomes are those of a Python list.", "quantifier": "all five list classes, all 35 method names, all positional and keyword arguments (any number, any names, any objects), all contents", "why_tests_cant": "Arbitrary argument lists, combined with flags and format strings of five tables, and with methods that Python makes from slots and prefers to those in the tables.", "anchors": ["pyfastutil/src/ints/IntArrayList.cpp: IntArrayList_methods, asSequence, asMapping, IntArrayListType, IntArrayList_pop, IntArrayList_sort", "pyfastutil/src/ints/BigIntArrayList.cpp: the same", "pyfastutil/src/ints/IntLinkedList.cpp: the same", "pyfastutil/src/objects/ObjectArrayList.cpp: the same", "pyfastutil/src/objects/ObjectLinkedList.cpp: the same", "pyfastutil/ints/*.pyi"]}
{"id": "C65", "title": "The attributes of a list do not depend on what the program has done before", "statement": "An attribute that a class of the library has is found on its lists (or Unsafe, SIMD, SIMDLowAVX512, ASM objects) at any point of a program: by a method call in any form (with keywords, with stars), by getattr, by taking a bound method without calling it, and hasattr says so; isinstance with an abstract class has an answer; setting an attribute raises AttributeError.", "quantifier": "all five list classes and the four classes of pyfastutil.unsafe, all histories of uses since the import (constructor calls, operators, iteration, method calls in all forms, attribute access on lists and classes, subclassing), all attribute names, Python 3.9 to 3.13", "why_tests_cant": "It depends on the whole history of the process: any test that has called one method of the class before sees nothing.", "anchors": ["pyfastutil/src/ints/IntArrayList.cpp: IntArrayListType, initializeIntArrayListType, PyInit_IntArrayList (no PyType_Ready)", "pyfastutil/src/ints/BigIntArrayList.cpp: the same", "pyfastutil/src/ints/IntLinkedList.cpp: the same", "pyfastutil/src/objects/ObjectArrayList.cpp: the same", "pyfastutil/src/objects/ObjectLinkedList.cpp: the same", "pyfastutil/src/unsafe/Unsafe.cpp: UnsafeType, initializeUnsafeType, PyInit_Unsafe", "pyfastutil/src/unsafe/SIMD.cpp: the same", "pyfastutil/src/unsafe/SIMDLowAVX512.cpp: the same", "pyfastutil/src/unsafe/ASM.cpp: the same", "pyfastutil/src/PyFastUtil.cpp: PyInit___pyfastutil"]}
{"id": "C66", "title": "A call that other threads run beside acts as one step", "statement": "Whatever threads do with lists at the same time, each call acts at once for all others, as with Python's own lists: what every thread learns is what it learns if the calls happen one after the other, each at some moment between its beginning and its end, and no call reads or writes memory that is not alive.", "quantifier": "all schedules of any number of threads over any number of lists, switching at every point where the interpreter lock is free (between any two memory accesses of reverse, * and *=), all calls, all list contents, all CPU feature sets", "why_tests_cant": "The schedules cannot be enumerated, and the window is a few instructions wide.", "anchors": ["pyfastutil/src/ints/IntArrayList.cpp: IntArrayList_reverse, IntArrayList_mul, IntArrayList_imul", "pyfastutil/src/ints/BigIntArrayList.cpp: the same", "pyfastutil/src/ints/IntLinkedList.cpp: IntLinkedList_reverse", "pyfastutil/src/objects/ObjectArrayList.cpp: ObjectArrayList_reverse", "pyfastutil/src/objects/ObjectLinkedList.cpp: ObjectLinkedList_reverse", "pyfastutil/src/utils/include/qreverse.hpp: qReverse"]}
{"id": "C67", "title": "Importing the package gives every documented class or raises, and can be repeated", "statement": "import pyfastutil.ints, pyfastutil.objects or pyfastutil.unsafe binds every documented name to its class, or raises; it never binds only some of them, never ends the process, and keeps nothing of an attempt that raised. After an import that raised, an import during which nothing fails succeeds.", "quantifier": "all histories of imports in a process, each allocation of each import failing or not, a garbage collection running or not at each point where one can, all CPU feature sets, Python 3.9 to 3.13", "why_tests_cant": "An allocation that fails during an import cannot be provoked one by one, and what it leaves behind shows only at a later import.", "anchors": ["pyfastutil/src/PyFastUtil.cpp: PyInit___pyfastutil", "pyfastutil/src/utils/simd/BitonicSort.cpp: initBitonicSort", "pyfastutil/src/ints/IntArrayList.cpp: PyInit_IntArrayList (and the same in the other thirteen files)", "pyfastutil/ints.py", "pyfastutil/objects.py", "pyfastutil/unsafe/__init__.py"]}
{"id": "C68", "title": "A failing length hint makes extend raise and take nothing", "statement": "l.extend(x) and l += x, where asking x for its length (len(x) or x.__length_hint__()) raises, do what Python's list does: they raise that exception, take nothing from the iterator of x, add nothing to the list, and keep no reference. If asking works, the hint does not change the outcome.", "quantifier": "all list classes, all contents, all answers and exceptions of __len__ and __length_hint__ (whatever they do to the list), all items left in the iterator and all exceptions at its end", "why_tests_cant": "The fault needs an iterable with a broken __len__ and shows only in the iterator or in a reference count.", "anchors": ["pyfastutil/src/ints/IntArrayList.cpp: IntArrayList_extend, IntArrayList_iadd", "pyfastutil/src/ints/BigIntArrayList.cpp: the same", "pyfastutil/src/ints/IntLinkedList.cpp: IntLinkedList_extend, IntLinkedList_iadd", "pyfastutil/src/objects/ObjectArrayList.cpp: ObjectArrayList_extend, ObjectArrayList_iadd"]}
{"id": "C69", "title": "Unsafe, SIMD, SIMDLowAVX512 and ASM objects work in with statements and are given back once", "statement": "with T() as x: p makes one object, binds x to that very object, runs p once, and lets every exception of p go on; calls of the constructor, __enter__ and __exit__ take the documented arguments and raise TypeError for others. Whatever the program does with the object inside and outside the statement, no object is used after it is gone, and each is given back exactly once, when no variable and no running with statement refers to it.", "quantifier": "all programs of with statements (nested, on new objects or ones bound before), assignments, deletions, exceptions, try statements, and constructor, __enter__ and __exit__ calls with any arguments, over the four classes; memory granted or refused at every constructor call", "why_tests_cant": "A reference too many or too few shows only for some nesting of statements, rebinding and exceptions, and then only as a leak or a crash elsewhere.", "anchors": ["pyfastutil/src/unsafe/Unsafe.cpp: Unsafe_init, Unsafe_dealloc, Unsafe_enter, Unsafe_exit, Unsafe_methods, initializeUnsafeType", "pyfastutil/src/unsafe/SIMD.cpp: the same", "pyfastutil/src/unsafe/SIMDLowAVX512.cpp: the same", "pyfastutil/src/unsafe/ASM.cpp: the same", "pyfastutil/unsafe/Unsafe.pyi", "pyfastutil/unsafe/SIMD.pyi", "pyfastutil/unsafe/SIMDLowAVX512.pyi", "pyfastutil/unsafe/ASM.pyi"]}
{"id": "C70", "title": "A method call on an Unsafe, SIMD or ASM object reaches the documented function or raises", "statement": "x.name(*args, **kwargs) on an Unsafe, SIMD or ASM object goes on with its arguments if name is documented and the arguments fit the documented parameters; it raises TypeError, and has looked at none of them, if they do not fit, and AttributeError if there is no such method. Every documented method exists, and no call looks at arguments that were not passed.", "quantifier": "the three classes, all names (those that every object has excepted), any number of positional and any keyword arguments, Windows and other systems", "why_tests_cant": "All names of 132 entries with all argument lists; a missing check shows only as a read of whatever lies behind the arguments.", "anchors": ["pyfastutil/src/unsafe/Unsafe.cpp: Unsafe_methods and its functions", "pyfastutil/src/unsafe/SIMD.cpp: SIMD_methods, REGISTER_SIMD_FUNCTION, SIMD_memcpy, SIMD_reverse, SIMD_setAVX512Vector32, ...", "pyfastutil/src/unsafe/ASM.cpp: ASM_methods and its functions", "pyfastutil/unsafe/Unsafe.pyi", "pyfastutil/unsafe/SIMD.pyi", "pyfastutil/unsafe/ASM.pyi"]}
