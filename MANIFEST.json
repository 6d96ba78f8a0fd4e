{
 "claims": [
  {
   "property": "C01",
   "status": "partial",
   "theorems": [
    "Verif.Props.C01_exact",
    "Verif.Props.C01_read_partial",
    "Verif.Props.C01_append_pop_partial",
    "Verif.Props.C01_exact_iff",
    "Verif.Props.C01_negation",
    "Verif.Props.C01_linked_read_partial",
    "Verif.Props.C01_linked_negation"
   ],
   "note": "Exact read-back condition proved for both readers; negation for negative/large values of the 32-bit lists on 3.12+. Exact (iff) for every valid index."
  },
  {
   "property": "C02",
   "status": "partial",
   "theorems": [
    "Verif.Props.C02_invariant",
    "Verif.Props.C02_invariant_history",
    "Verif.Props.C02_no_foreign_partial",
    "Verif.Props.C02_refused_partial",
    "Verif.Props.C02_truncation_negation",
    "Verif.Props.C02_slice_negation",
    "Verif.Props.C02_linked_invariant",
    "Verif.Props.C02_linked_invariant_history",
    "Verif.Props.C02_linked_truncation_negation",
    "Verif.Props.C02_linked_overflow_negation",
    "Verif.Props.C02_refusal_exact"
   ],
   "note": "Every stored element is in range; nothing foreign is stored by accepted calls outside the truncating conversions; negations for truncation. Exact (iff): which arguments append, insert and item assignment refuse, per interpreter version."
  },
  {
   "property": "C03",
   "status": "partial",
   "theorems": [
    "Verif.Props.C03_history_partial",
    "Verif.Props.C03_negation",
    "Verif.Props.C03_extend_self_negation",
    "Verif.Props.C03_pop_index_negation",
    "Verif.Props.C03_exact",
    "Verif.Props.C03_history_exact",
    "Verif.Props.C03_first_deviation"
   ],
   "note": "C03_exact and C03_history_exact: a call, and a history, agrees with a Python list if and only if it is in the decidable domain Exact, stated on contents and arguments only. The claim for all calls is false; Exact says exactly for which it holds."
  },
  {
   "property": "C04",
   "status": "proved",
   "theorems": [
    "Verif.Props.C04_index_exact"
   ],
   "note": "Every index operand of l[i], l[i]=v, del l[i], pop(i), insert(i,v): exact position or the exception, never out of bounds."
  },
  {
   "property": "C05",
   "status": "partial",
   "theorems": [
    "Verif.Props.C05_search_partial",
    "Verif.Props.C05_truncation_negation",
    "Verif.Props.C05_overflow_negation",
    "Verif.Props.C05_exact",
    "Verif.Props.C05_linked_exact"
   ],
   "note": "Exact for values of the element type; negations: remove/count/in truncate or raise for wider values. The values on which remove, count, in and index agree are characterised exactly (iff) for all int lists."
  },
  {
   "property": "C06",
   "status": "proved",
   "theorems": [
    "Verif.Props.C06_slice_read"
   ],
   "note": "Every slice, all steps, None and huge fields, exact positions and order."
  },
  {
   "property": "C07",
   "status": "partial",
   "theorems": [
    "Verif.Props.C07_slice_assign_partial",
    "Verif.Props.C07_del_negation",
    "Verif.Props.C07_self_negation",
    "Verif.Props.C07_iterator_negation",
    "Verif.Props.C07_negative_same_negation",
    "Verif.Props.C07_exact",
    "Verif.Props.C07_never"
   ],
   "note": "Contiguous assignment from every finite good source; negations for deletion, self-assignment, iterators, negative values from the same class on 3.12+. Exact (iff) for lists and tuples; deletion and assignment to extended slices never agree."
  },
  {
   "property": "C08",
   "status": "partial",
   "theorems": [
    "Verif.Props.C08_unchanged_partial",
    "Verif.Props.C08_slice_negation",
    "Verif.Props.C08_linked_exact",
    "Verif.Props.C08_linked_negation",
    "Verif.Props.C08_slice_exact"
   ],
   "note": "All failing calls other than slice assignment leave the list unchanged (extend/+= keep the converted prefix); negation for slice assignment. Slice assignment exactly (iff): which of the assignments that raise leave the contents unchanged. IntLinkedList exactly (iff): which of the calls that fail leave the contents unchanged."
  },
  {
   "property": "C09",
   "status": "partial",
   "theorems": [
    "Verif.Props.C09_from_range_partial",
    "Verif.Props.C09_from_range_short",
    "Verif.Props.C09_zero_step",
    "Verif.Props.C09_descending_negation",
    "Verif.Props.C09_sentinel_negation",
    "Verif.Props.C09_sentinel_witness",
    "Verif.Props.C09_overflow_negation",
    "Verif.Props.C09_exact",
    "Verif.Props.C09_exact_two",
    "Verif.Props.C09_exact_one"
   ],
   "note": "C09_exact, _two and _one characterise exactly the machine-word arguments for which the result is the range; negations: truncated descending count, sentinel, signed overflow."
  },
  {
   "property": "C10",
   "status": "partial",
   "theorems": [
    "Verif.Props.C10_add_list_partial",
    "Verif.Props.C10_add_list_agrees",
    "Verif.Props.C10_add_same_negation",
    "Verif.Props.C10_exact",
    "Verif.Props.C10_linked_list_partial",
    "Verif.Props.C10_linked_same_negation",
    "Verif.Props.C10_ObjectArrayList_add_list",
    "Verif.Props.C10_ObjectArrayList_add_same_fails",
    "Verif.Props.C10_ObjectLinkedList_add_same_fails",
    "Verif.Props.C10_ObjectLinkedList_add_list"
   ],
   "note": "list operand exact (int, object array and object linked lists); same-class operand always MemoryError (negation). The operands that agree are characterised exactly (iff)."
  },
  {
   "property": "C11",
   "status": "partial",
   "theorems": [
    "Verif.Props.C11_mul_partial",
    "Verif.Props.C11_mul_aligned",
    "Verif.Props.C11_mul_fault",
    "Verif.Props.C11_mul_negation",
    "Verif.Props.C11_linked_mul",
    "Verif.Props.C11_ObjectArrayList_mul",
    "Verif.Props.C11_ObjectLinkedList_mul"
   ],
   "note": "int lists: exact under the alignment condition of the copy, faults otherwise (negation); ObjectArrayList, ObjectLinkedList: exact for every n. Products beyond the memory of the machine are the subject of C53."
  },
  {
   "property": "C12",
   "status": "partial",
   "theorems": [
    "Verif.Props.C12_imul_partial",
    "Verif.Props.C12_imul_negation",
    "Verif.Props.C12_exact",
    "Verif.Props.C12_linked_imul_partial",
    "Verif.Props.C12_linked_imul_negation",
    "Verif.Props.C12_linked_doubling",
    "Verif.Props.C12_linked_doubling_negation",
    "Verif.Props.C12_ObjectArrayList_imul_partial",
    "Verif.Props.C12_ObjectArrayList_imul_never_returns",
    "Verif.Props.C12_ObjectLinkedList_imul"
   ],
   "note": "ObjectLinkedList: exact for every n; other classes: n<=1 or empty exact, every other case out-of-bounds for the int lists, non-terminating for ObjectArrayList (negations). Products beyond the memory of the machine are the subject of C53. Exact (iff) for the int array lists."
  },
  {
   "property": "C13",
   "status": "partial",
   "theorems": [
    "Verif.Props.C13_iadd_partial",
    "Verif.Props.C13_iadd_same_negation",
    "Verif.Props.C13_exact",
    "Verif.Props.C13_linked_iadd_partial",
    "Verif.Props.C13_linked_same_negation",
    "Verif.Props.C13_ObjectArrayList_iadd_partial",
    "Verif.Props.C13_ObjectArrayList_extend_partial",
    "Verif.Props.C13_ObjectArrayList_iadd_same_none",
    "Verif.Props.C13_ObjectArrayList_self_undefined",
    "Verif.Props.C13_ObjectLinkedList_extend_partial",
    "Verif.Props.C13_ObjectLinkedList_iadd_same_none"
   ],
   "note": "Exact for non-same-class operands; same-class += returns None (negation). The operands that agree are characterised exactly (iff)."
  },
  {
   "property": "C14",
   "status": "proved",
   "theorems": [
    "Verif.Props.C14_compare",
    "Verif.Props.C14_compare_list",
    "Verif.Props.C14_strict_total_order"
   ],
   "note": "All six operators lexicographic; strict total order laws at the API."
  },
  {
   "property": "C15",
   "status": "partial",
   "theorems": [
    "Verif.Props.C15_exact",
    "Verif.Props.C15_eq_exact",
    "Verif.Props.C15_eq_partial",
    "Verif.Props.C15_order_partial",
    "Verif.Props.C15_reflexive_negation",
    "Verif.Props.C15_length_negation",
    "Verif.Props.C15_negative_negation"
   ],
   "note": "==, != exact; ordering exact at equal lengths except <= / >= of equal lists; negations for those, for different lengths and for negative elements. Exact (iff) for IntLinkedList against any IntLinkedList."
  },
  {
   "property": "C16",
   "status": "partial",
   "theorems": [
    "Verif.Props.C16_sorts_partial",
    "Verif.Props.C16_length_partial",
    "Verif.Props.C16_elements_partial",
    "Verif.Props.C16_zeros_partial",
    "Verif.Props.C16_oddSize_faults",
    "Verif.Props.C16_loses_int",
    "Verif.Props.C16_distinct_ints_lost",
    "Verif.Props.C16_loses_long",
    "Verif.Props.C16_reverse_ignored",
    "Verif.Props.C16_flag_range"
   ],
   "note": "Proved where the vector code is not used (fewer than eight elements, no AVX2/AVX-512, or at most one register full) and reverse is 0 or 1. The code violates the property elsewhere: C16_oddSize_faults (misaligned access, always, for 9 to 15 ints with AVX2 and AVX-512), C16_loses_int, C16_distinct_ints_lost (no list of distinct ints is sorted by the vector code), C16_loses_long, C16_reverse_ignored. C16_length_partial: what does hold on every CPU. With the vector code every element left was in the list or is 0 (C16_elements_partial)."
  },
  {
   "property": "C17",
   "status": "partial",
   "theorems": [
    "Verif.Props.C17_sorts",
    "Verif.Props.C17_noOverflow_partial",
    "Verif.Props.C17_ascending_partial",
    "Verif.Props.C17_descending_partial"
   ],
   "note": "Every strict weak order and every list below 2^60 elements: terminates, in bounds, stable sorted permutation. The int counter minGallop is proved not to overflow up to 2^27 elements; beyond that the overflow is not excluded."
  },
  {
   "property": "C18",
   "status": "proved",
   "theorems": [
    "Verif.Props.C18_reverse_int",
    "Verif.Props.C18_ObjectArrayList_reverse"
   ],
   "note": "IntArrayList, BigIntArrayList and ObjectArrayList: exact on every CPU."
  },
  {
   "property": "C19",
   "status": "proved",
   "theorems": [
    "Verif.Props.C19_repr_array",
    "Verif.Props.C19_linked_repr"
   ],
   "note": "IntArrayList, BigIntArrayList, IntLinkedList: exact for every contents."
  },
  {
   "property": "C20",
   "status": "partial",
   "theorems": [
    "Verif.Props.C20_forward_positions",
    "Verif.Props.C20_forward_partial",
    "Verif.Props.C20_forward_unmodified",
    "Verif.Props.C20_exhausted_negation",
    "Verif.Props.C20_exact"
   ],
   "note": "Exact positions for every interleaving; negation: an exhausted iterator resumes after growth. Exact (iff) over all interleavings."
  },
  {
   "property": "C21",
   "status": "partial",
   "theorems": [
    "Verif.Props.C21_reverse_unmodified",
    "Verif.Props.C21_reverse_partial",
    "Verif.Props.C21_shrink_negation",
    "Verif.Props.C21_pop_negation",
    "Verif.Props.C21_empty_negation",
    "Verif.Props.C21_exact",
    "Verif.Props.C21_exact_empty",
    "Verif.Props.C21_safe_exact"
   ],
   "note": "Exact while the list does not shrink below the cursor; negations: out-of-bounds read after shrinking, empty list. Exact (iff) over all interleavings, and exactly when every read is inside the list."
  },
  {
   "property": "C22",
   "status": "partial",
   "theorems": [
    "Verif.Props.C22_partial",
    "Verif.Props.C22_append_dangles",
    "Verif.Props.C22_drop_dangles",
    "Verif.Props.C22_bytes_releases_garbage",
    "Verif.Props.C22_exact",
    "Verif.Props.C22_write_exact"
   ],
   "note": "The code violates the property: neither growing nor dropping the list is prevented while a buffer is held. C22_append_dangles and C22_drop_dangles show that every non-empty buffer can be made dangling, C22_bytes_releases_garbage that a consumer with an uninitialised Py_buffer releases garbage; C22_partial proves validity for a list created with enough capacity that is not outgrown or dropped. Exact: a memoryview stays readable and writable after exactly the histories in which the list is not dropped and asks for no more than the room it had; after every other history each access is a use after free."
  },
  {
   "property": "C23",
   "status": "proved",
   "theorems": [
    "Verif.Props.C23_linked_refines",
    "Verif.Props.C23_linked_copy",
    "Verif.Props.C23_linked_independent",
    "Verif.Props.C23_linked_range_needed",
    "Verif.Props.C23_copy",
    "Verif.Props.C23_independent",
    "Verif.Props.C23_own_contents_only"
   ],
   "note": "Array lists at the level of allocator blocks (C23_copy, C23_independent, C23_own_contents_only); linked lists at the level of the nodes of std::list, modelled after libstdc++ (C23_linked_*)."
  },
  {
   "property": "C24",
   "status": "partial",
   "theorems": [
    "Verif.Props.C24_exact",
    "Verif.Props.C24_history_exact",
    "Verif.Props.C24_contents_decide",
    "Verif.Props.C24_history_partial",
    "Verif.Props.C24_nodes_distinct",
    "Verif.Props.C24_append_negation",
    "Verif.Props.C24_negation",
    "Verif.Props.C24_set_negation",
    "Verif.Props.C24_extend_negation",
    "Verif.Props.C24_del_slice_negation"
   ],
   "note": "C24_exact and C24_history_exact: a call, and a history, agrees with a Python list if and only if it is in the decidable domain LinkedList.Exact, stated on contents and arguments only; the claim for all calls is false. Node identities stay distinct in all histories; negations outside the domain."
  },
  {
   "property": "C25",
   "status": "partial",
   "theorems": [
    "Verif.Props.C25_exact",
    "Verif.Props.C25_pop_last_partial",
    "Verif.Props.C25_pop_index_negation",
    "Verif.Props.C25_ObjectLinkedList_pop_last_partial",
    "Verif.Props.C25_ObjectLinkedList_pop_index_negation"
   ],
   "note": "pop() exact in both linked lists; pop(i) reads a freed node for every valid index (negations). Exact (iff): pop(i) agrees only where it is out of range."
  },
  {
   "property": "C26",
   "status": "proved",
   "theorems": [
    "Verif.Props.C26_lookup",
    "Verif.Props.C26_lookup_value"
   ],
   "note": "Positional lookup is exact for every length and position."
  },
  {
   "property": "C27",
   "status": "partial",
   "theorems": [
    "Verif.Props.C27_forward",
    "Verif.Props.C27_reversed_actual",
    "Verif.Props.C27_reversed_partial",
    "Verif.Props.C27_reversed_negation"
   ],
   "note": "Forward iteration exact in full; reversed iteration characterised exactly: right iff first and last element coincide (negation otherwise)."
  },
  {
   "property": "C28",
   "status": "partial",
   "theorems": [
    "Verif.Props.C28_forward_exact",
    "Verif.Props.C28_reversed_exact",
    "Verif.Props.C28_ObjectLinkedList_forward_exact",
    "Verif.Props.C28_ObjectLinkedList_reversed_exact",
    "Verif.Props.C28_values_partial",
    "Verif.Props.C28_safe_partial",
    "Verif.Props.C28_del_negation",
    "Verif.Props.C28_iadd_negation",
    "Verif.Props.C28_append_negation",
    "Verif.Props.C28_clear_negation",
    "Verif.Props.C28_reversed_negation",
    "Verif.Props.C28_ObjectLinkedList_values_partial",
    "Verif.Props.C28_ObjectLinkedList_safe_partial",
    "Verif.Props.C28_ObjectLinkedList_del_negation"
   ],
   "note": "Both linked lists: safety for all counted modifications, exact values when the size is unchanged; general negations for del, +=, append, clear, reversed.  C28_forward_exact, C28_reversed_exact and their ObjectLinkedList versions give the complete sequence of answers of the forward and the reverse iterator in every session of calls the forward iterator survives: the element it should answer, or one off once a counted call came in between, and for the reverse iterator also when it runs off the list."
  },
  {
   "property": "C29",
   "status": "partial",
   "theorems": [
    "Verif.Props.C29_ObjectArrayList_exact",
    "Verif.Props.C29_ObjectLinkedList_exact",
    "Verif.Props.C29_ObjectArrayList_session_partial",
    "Verif.Props.C29_ObjectArrayList_balanced_partial",
    "Verif.Props.C29_ObjectArrayList_setItem_leaks",
    "Verif.Props.C29_ObjectArrayList_imul_resize_leak",
    "Verif.Props.C29_ObjectArrayList_slice_growth_uncounted",
    "Verif.Props.C29_ObjectArrayList_use_after_free",
    "Verif.Props.C29_ObjectArrayList_constructor_uncounted",
    "Verif.Props.C29_ObjectArrayList_constructor_partial",
    "Verif.Props.C29_ObjectArrayList_resize_growth_uncounted",
    "Verif.Props.C29_ObjectLinkedList_session_partial",
    "Verif.Props.C29_ObjectLinkedList_balanced_partial",
    "Verif.Props.C29_ObjectLinkedList_setItem_leaks",
    "Verif.Props.C29_ObjectLinkedList_imul_leaks",
    "Verif.Props.C29_ObjectLinkedList_constructor_uncounted",
    "Verif.Props.C29_ObjectLinkedList_extend_self_leaks"
   ],
   "note": "Both object lists: exact ledger over every session in the domain, client releases included; negations: item assignment, *= 0 and shrinking resize leak, growing slice assignment, growing resize and same-class construction do not count (use after free), l.extend(l) counts too often. Exact (iff) for ObjectArrayList and ObjectLinkedList: the calls, whatever they answer, after which every reference count is right."
  },
  {
   "property": "C30",
   "status": "partial",
   "theorems": [
    "Verif.Props.C30_exact",
    "Verif.Props.C30_linked_exact",
    "Verif.Props.C30_ObjectArrayList_search_partial",
    "Verif.Props.C30_ObjectArrayList_misses_equal",
    "Verif.Props.C30_ObjectArrayList_in_false",
    "Verif.Props.C30_ObjectLinkedList_search_partial",
    "Verif.Props.C30_ObjectLinkedList_misses_equal",
    "Verif.Props.C30_ObjectLinkedList_in_false"
   ],
   "note": "Exact when equality is identity on the list; negations: equal but distinct elements are never found, `in` is False for everything but ints (both object lists). Exact (iff) in terms of the host's comparisons for both classes."
  },
  {
   "property": "C31",
   "status": "partial",
   "theorems": [
    "Verif.Props.C31_exact",
    "Verif.Props.C31_linked_exact",
    "Verif.Props.C31_ObjectArrayList_compare_partial",
    "Verif.Props.C31_ObjectArrayList_eq",
    "Verif.Props.C31_ObjectArrayList_order_lengths",
    "Verif.Props.C31_ObjectArrayList_order_first",
    "Verif.Props.C31_ObjectArrayList_empty",
    "Verif.Props.C31_ObjectLinkedList_compare_partial",
    "Verif.Props.C31_ObjectLinkedList_order_lengths",
    "Verif.Props.C31_ObjectLinkedList_order_first"
   ],
   "note": "== always exact; the other operators in the stated domain; negations for different lengths, equal first elements and empty lists (both object lists). Exact (iff) for both classes against any list."
  },
  {
   "property": "C32",
   "status": "partial",
   "theorems": [
    "Verif.Props.C32_exact",
    "Verif.Props.C32_linked_exact",
    "Verif.Props.C32_linked_self_exact",
    "Verif.Props.C32_ObjectArrayList_slice_assignment_partial",
    "Verif.Props.C32_ObjectArrayList_step_refused",
    "Verif.Props.C32_ObjectArrayList_self_slice_null",
    "Verif.Props.C32_ObjectLinkedList_slice_assignment_partial",
    "Verif.Props.C32_ObjectLinkedList_backward_slice",
    "Verif.Props.C32_ObjectLinkedList_step_wrong_length",
    "Verif.Props.C32_ObjectLinkedList_self_reversed"
   ],
   "note": "Contiguous assignment of every sized sequence exact except the linked list's backward slices that grow (negation); references balanced (array: unless a list grows the slice, negation); negations: own slice, extended slices of another length. Exact (iff) for lists: step 1 (array), the lengths that work (linked). Exact (iff) for l[i:j:k] = l of ObjectLinkedList: the repetitions the list must have."
  },
  {
   "property": "C33",
   "status": "partial",
   "theorems": [
    "Verif.Props.C33_ObjectArrayList_exact",
    "Verif.Props.C33_ObjectArrayList_history_exact",
    "Verif.Props.C33_ObjectLinkedList_exact",
    "Verif.Props.C33_ObjectLinkedList_history_exact",
    "Verif.Props.C33_ObjectArrayList_history_partial",
    "Verif.Props.C33_ObjectArrayList_del_slice_null",
    "Verif.Props.C33_ObjectArrayList_bad_key",
    "Verif.Props.C33_ObjectLinkedList_history_partial",
    "Verif.Props.C33_ObjectLinkedList_del_slice_null",
    "Verif.Props.C33_ObjectLinkedList_bad_key"
   ],
   "note": "Both object lists: every history in the domain agrees with a Python list. The calls that agree are characterised exactly (iff), per call and over histories, for both classes (ObjectArrayList histories: while no call stores an uncounted object). Negations for slice deletion and non-index keys."
  },
  {
   "property": "C34",
   "status": "partial",
   "theorems": [
    "Verif.Props.C34_result_unique",
    "Verif.Props.C34_object_array",
    "Verif.Props.C34_object_linked",
    "Verif.Props.C34_int_array_partial",
    "Verif.Props.C34_int_linked_partial",
    "Verif.Props.C34_negation_312",
    "Verif.Props.C34_negation_311",
    "Verif.Props.C34_int_array_kept_exact",
    "Verif.Props.C34_int_array_exact",
    "Verif.Props.C34_int_linked_exact"
   ],
   "note": "Object lists: full, every strict weak order, both directions, with and without key. Int lists with a key: every value that survives the trip through int objects; negations for the rest (negative on 3.12+, 2^30 and more up to 3.11). Int lists exactly (iff): the contents for which a sort with a key is right, per class and interpreter version."
  },
  {
   "property": "C35",
   "status": "partial",
   "theorems": [
    "Verif.Props.C35_object_array",
    "Verif.Props.C35_object_linked_partial",
    "Verif.Props.C35_int_array_partial",
    "Verif.Props.C35_linked_negation",
    "Verif.Props.C35_int_negation",
    "Verif.Props.C35_object_linked_exact",
    "Verif.Props.C35_int_array_exact",
    "Verif.Props.C35_int_linked_exact"
   ],
   "note": "ObjectArrayList: full, arbitrary stateful and raising callbacks. ObjectLinkedList and the int lists: memory safety and permutation; negation: the exception is left pending instead of raised. Exact: for all callbacks, the linked and int lists leave what ObjectArrayList leaves and return with the exception pending exactly where it raises (C35_object_linked_exact, C35_int_array_exact, C35_int_linked_exact)."
  },
  {
   "property": "C36",
   "status": "proved",
   "theorems": [
    "Verif.Props.C36_pending_runs",
    "Verif.Props.C36_no_fault",
    "Verif.Props.C36_stack_buffer"
   ],
   "note": "Every caller, every list of fewer than 2^60 elements: no table or work-area overflow; stack-buffer areas disjoint for every length."
  },
  {
   "property": "C37",
   "status": "partial",
   "theorems": [
    "Verif.Props.C37_elsewhere_partial",
    "Verif.Props.C37_room_partial",
    "Verif.Props.C37_append_uaf",
    "Verif.Props.C37_threads_partial",
    "Verif.Props.C37_threads_uaf",
    "Verif.Props.C37_int_linked_partial",
    "Verif.Props.C37_int_linked_clear",
    "Verif.Props.C37_object_linked_partial",
    "Verif.Props.C37_object_linked_clear",
    "Verif.Props.C37_object_array_keys_partial",
    "Verif.Props.C37_object_array_append_uaf",
    "Verif.Props.C37_exact",
    "Verif.Props.C37_threads_exact",
    "Verif.Props.C37_int_linked_exact",
    "Verif.Props.C37_object_linked_exact",
    "Verif.Props.C37_object_array_keys_exact"
   ],
   "note": "Holds for callbacks and threads that leave the list alone, for lists kept within the capacity they were created with, and for linked lists that are not shortened; the code violates it otherwise: for every non-empty list an appending key function or thread gives a use after free, a clearing key function an invalid iterator. Data races as such and the reference counts of elements removed by callbacks are not modelled. Exact: int array lists with callbacks (C37_exact) and with threads (C37_threads_exact), linked lists (C37_int_linked_exact, C37_object_linked_exact) and the key loop of ObjectArrayList (C37_object_array_keys_exact) - which callbacks and interleavings the sort survives."
  },
  {
   "property": "C38",
   "status": "proved",
   "theorems": [
    "Verif.Props.C38_memcpy_exact",
    "Verif.Props.C38_memcpyAligned_exact",
    "Verif.Props.C38_memcpyAligned_dichotomy",
    "Verif.Props.C38_fastMemcpy_exact"
   ],
   "note": "Exact copy and frame for every count, size and flag combination; faults of the aligned variant characterised."
  },
  {
   "property": "C39",
   "status": "partial",
   "theorems": [
    "Verif.Props.C39_reverse_partial",
    "Verif.Props.C39_reverse16_partial",
    "Verif.Props.C39_reverse16_negation",
    "Verif.Props.C39_reverse16_exact"
   ],
   "note": "Widths 1, 2, 4, 8 in full. Width 16 exactly (iff): reversed precisely when the elements that the AVX2 loop exchanges consist of two equal halves; violated otherwise."
  },
  {
   "property": "C40",
   "status": "partial",
   "theorems": [
    "Verif.Props.C40_reported_exactly",
    "Verif.Props.C40_guarded_paths_partial",
    "Verif.Props.C40_avx512_partial",
    "Verif.Props.C40_avx512_without_os_support",
    "Verif.Props.C40_reverse_needs_avx512bw"
   ],
   "note": "SSE and AVX2 flags exact (CPU and operating system); negations: the AVX-512 flags ignore whether the operating system saves ZMM state, and the 512-bit reversal path needs AVX512BW but only checks AVX512F."
  },
  {
   "property": "C41",
   "status": "proved",
   "theorems": [
    "Verif.Props.C41_set_get",
    "Verif.Props.C41_memcpy",
    "Verif.Props.C41_memset",
    "Verif.Props.C41_raise_unchanged",
    "Verif.Props.C41_memcpy_overlap_undefined"
   ],
   "note": "Every memory, address, size and byte string; overlapping memcpy is undefined (C contract)."
  },
  {
   "property": "C42",
   "status": "partial",
   "theorems": [
    "Verif.Props.C42_history_partial",
    "Verif.Props.C42_realloc_zero_reports_failure",
    "Verif.Props.C42_huge_size_wraps",
    "Verif.Props.C42_free_once"
   ],
   "note": "Every history inside the C contract refines a store of separate blocks; negations: realloc(p, 0) frees and reports failure, sizes from 2^64 on wrap to smaller blocks."
  },
  {
   "property": "C43",
   "status": "partial",
   "theorems": [
    "Verif.Props.C43_exact",
    "Verif.Props.C43_identity",
    "Verif.Props.C43_loses_references",
    "Verif.Props.C43_careful_partial",
    "Verif.Props.C43_not_an_address"
   ],
   "note": "Identity holds; negation: each as_object steals a reference, after enough rounds a named object is freed; safe when the client adds references by hand. Exact (iff): the histories in which every named object stays alive at every moment."
  },
  {
   "property": "C44",
   "status": "partial",
   "theorems": [
    "Verif.Props.C44_stores_partial",
    "Verif.Props.C44_wrong_count",
    "Verif.Props.C44_small_lanes_lose_sign",
    "Verif.Props.C44_small_lanes_never_raise",
    "Verif.Props.C44_first_digit_only",
    "Verif.Props.C44_overflow_stores",
    "Verif.Props.C44_type_confusion",
    "Verif.Props.C44_exact"
   ],
   "note": "Every lane exact for values the interpreter's fast path converts; negations: sign lost on 3.12+ (16/8-bit), values of 2^30 and more up to 3.11 (32-bit), no error for unrepresentable values, stores after an error, type confusion for non-ints. Exact (iff): the setters store all arguments without an exception precisely for these values."
  },
  {
   "property": "C45",
   "status": "partial",
   "theorems": [
    "Verif.Props.C45_history_partial",
    "Verif.Props.C45_history_exact",
    "Verif.Props.C45_unknown_address_blocks",
    "Verif.Props.C45_protect_failure_blocks",
    "Verif.Props.C45_ghost_entry"
   ],
   "note": "proved for histories that free only existing functions and with VirtualProtect succeeding: every call answers as specified and the lock is free after each. Negations: an unknown address or a failing VirtualProtect keeps the lock so that every later call hangs; freeFunctionFast leaves an entry that makes a later free invalid Exact (iff): the histories in which every call answers as specified."
  },
  {
   "property": "C46",
   "status": "partial",
   "theorems": [
    "Verif.Props.C46_partial",
    "Verif.Props.C46_short_partial",
    "Verif.Props.C46_last_stored_partial"
   ],
   "note": "Every history on the table of UnorderedDense.h (emplace, try_emplace, map[k]=v, at, contains, erase, size, clear, copy), any hash function, any keys, as long as there are never more than 2^24-2 entries at a time, gives the answers of a finite map and is free of undefined behaviour. Missing: larger tables, where the 24-bit distance field of a bucket can wrap around if all keys collide."
  },
  {
   "property": "C47",
   "status": "proved",
   "theorems": [
    "Verif.Props.C47_resize"
   ],
   "note": "resize for every argument object."
  },
  {
   "property": "C48",
   "status": "partial",
   "theorems": [
    "Verif.Props.C48_asInt_312",
    "Verif.Props.C48_asInt_311_partial",
    "Verif.Props.C48_asInt_negation",
    "Verif.Props.C48_asSmall_311",
    "Verif.Props.C48_asSmall_312_partial",
    "Verif.Props.C48_asSmall_negation",
    "Verif.Props.C48_asInt_exact",
    "Verif.Props.C48_asSmall_exact"
   ],
   "note": "Each helper exactly (iff): the values that come through unchanged, per interpreter version; negations for the others."
  },
  {
   "property": "C49",
   "status": "partial",
   "theorems": [
    "Verif.Props.C49_init_exact",
    "Verif.Props.C49_raises_exact",
    "Verif.Props.C49_init",
    "Verif.Props.C49_init_refused",
    "Verif.Props.C49_truncation_negation",
    "Verif.Props.C49_linked_init_exact",
    "Verif.Props.C49_linked_raises_exact",
    "Verif.Props.C49_linked_init",
    "Verif.Props.C49_linked_init_refused"
   ],
   "note": "Constructor exact for element-range items; negation for truncation. Exact (iff): the iterables whose elements the constructors store, and those at which they raise. Exact (iff) for IntLinkedList as well."
  },
  {
   "property": "C50",
   "status": "partial",
   "theorems": [
    "Verif.Props.C50_at_most_once",
    "Verif.Props.C50_one_at_a_time",
    "Verif.Props.C50_bounded",
    "Verif.Props.C50_all_started_partial",
    "Verif.Props.C50_no_lost_wakeup",
    "Verif.Props.C50_valid_partial",
    "Verif.Props.C50_dangling",
    "Verif.Props.C50_dangling_ordinary",
    "Verif.Props.C50_shutdown_drops",
    "Verif.Props.C50_nested_submit_deadlock",
    "Verif.Props.C50_valid_exact"
   ],
   "note": "proved for every schedule and number of workers: FIFO, at most once, never two at a time, no lost wake-up, bounded number of moves, everything started when the pool comes to rest, and no undefined behaviour if calls return after their task ended. Negations: the task refers to a local of submit, so a task started after submit returned is undefined behaviour (the ordinary course); shutdown drops queued tasks; a task that submits deadlocks the pool  C50_valid_exact: a schedule has no undefined behaviour exactly if each submit in it returns while its task is not running and only after the task was started, unless the task is never started in that schedule."
  },
  {
   "property": "C51",
   "status": "partial",
   "theorems": [
    "Verif.Props.C51_partial",
    "Verif.Props.C51_indirect_partial",
    "Verif.Props.C51_values_negation",
    "Verif.Props.C51_load_negation",
    "Verif.Props.C51_float_negation",
    "Verif.Props.C51_raises",
    "Verif.Props.C51_wrong_count",
    "Verif.Props.C51_constant_negation",
    "Verif.Props.C51_names",
    "Verif.Props.C51_example_negation",
    "Verif.Props.C51_only_result",
    "Verif.Props.C51_overflow_negation",
    "Verif.Props.C51_reports",
    "Verif.Props.C51_wraps_negation"
   ],
   "note": "All 1383 rows of the method table, wrappers and implementations are in the model and agree with the stub file. Proved for methods without pointer parameters and exactly converted integers; wrong counts, unsupported methods and the frame in general. The code violates the property: pointer parameters are dereferenced once too often (84 methods), float parameters are annotated int but an int is read as a float object, 25 methods not marked as unsupported raise NotImplementedError (GCC/Clang), the sign of char/short is lost on 3.12+, int is cut to 30 bits up to 3.11, out-of-range integers leave an exception pending after the store, unsigned int is cut to 32 bits silently, and the example in the class comment names a method that does not exist."
  },
  {
   "property": "C52",
   "status": "proved",
   "theorems": [
    "Verif.Props.C52_is_less",
    "Verif.Props.C52_defined",
    "Verif.Props.C52_sort_safe",
    "Verif.Props.C52_by_key_safe",
    "Verif.Props.C52_key_raises",
    "Verif.Props.C52_no_exception_lost",
    "Verif.Props.C52_sorts",
    "Verif.Props.C52_sorts_by_key",
    "Verif.Props.C52_ints",
    "Verif.Props.C52_strings",
    "Verif.Props.C52_floats",
    "Verif.Props.C52_tuples",
    "Verif.Props.C52_by_key"
   ],
   "note": "Every list of ints, strs, floats, tuples (nested) and instances of user classes; user-defined comparisons are a parameter, assumed to keep the classes of the keys and to answer NotImplemented without effects (such a method is asked twice) for the agreement with `<`; that no comparison is applied to the wrong type needs no assumption. Subclasses of int, str, float and tuple are user classes."
  },
  {
   "property": "C53",
   "status": "partial",
   "theorems": [
    "Verif.Props.C53_enough",
    "Verif.Props.C53_refused",
    "Verif.Props.C53_resize_huge",
    "Verif.Props.C53_create",
    "Verif.Props.C53_from_range",
    "Verif.Props.C53_slice_partial",
    "Verif.Props.C53_slice_negation",
    "Verif.Props.C53_extend_negation",
    "Verif.Props.C53_extend_refusal_negation",
    "Verif.Props.C53_mul_negation",
    "Verif.Props.C53_mul_refusal_negation",
    "Verif.Props.C53_storage",
    "Verif.Props.C53_linked_partial",
    "Verif.Props.C53_linked_history_partial",
    "Verif.Props.C53_linked_enough",
    "Verif.Props.C53_linked_mul_exact",
    "Verif.Props.C53_linked_create",
    "Verif.Props.C53_linked_create_enough",
    "Verif.Props.C53_linked_range",
    "Verif.Props.C53_linked_range_any",
    "Verif.Props.C53_linked_extend_negation",
    "Verif.Props.C53_linked_extend_items_negation",
    "Verif.Props.C53_linked_imul_negation",
    "Verif.Props.C53_linked_slice_negation"
   ],
   "note": "Proved for append, insert, resize, copy and construction, for every machine; every call equals the unlimited model on a machine that grants twice the room the call needs. Violated: extend and += with a refused or absurd size end the process (no handler), * and *= raise std::bad_alloc or length_error with the interpreter lock released, slice assignment has changed elements before it raises (negations). IntLinkedList (C53_linked_*): refused nodes at append, insert, copy, `*` and construction leave the list as it was, for every history; every call equals the unlimited model when enough nodes are granted; violated: extend and += end the process, *= keeps the rounds it finished, slice assignment keeps what it wrote (negations). Not covered: from_range of the array lists, a `__length_hint__` that raises (object lists: C60).  C53_from_range: from_range of array lists, exactly. from_range of IntLinkedList exactly: C53_linked_range, C53_linked_range_any."
  },
  {
   "property": "C54",
   "status": "partial",
   "theorems": [
    "Verif.Props.C54_alive_partial",
    "Verif.Props.C54_no_crash_partial",
    "Verif.Props.C54_contents_partial",
    "Verif.Props.C54_reclaimed_partial",
    "Verif.Props.C54_reinit_negation",
    "Verif.Props.C54_uninitialised_negation",
    "Verif.Props.C54_cycle_negation",
    "Verif.Props.C54_same_class_negation",
    "Verif.Props.C54_depth_negation",
    "Verif.Props.C54_reclaimed_exact",
    "Verif.Props.C54_no_crash_depth_partial",
    "Verif.Props.C54_depth_exact"
   ],
   "note": "Over all histories: no use after free, contents and exceptions as for Python lists, and, without repeated `__init__` and without cycles, living objects are exactly the reachable ones and storage is exactly theirs. Violated (negations): a repeated `__init__` loses storage and references; a linked list made by `__new__` only crashes on any use and on release; a list that contains itself is never collected; destruction recurses without bound; construction from a list of the same class does not count references. Objects with finalisers, subclasses and the other methods are not in this model. C54_reclaimed_exact: what stays behind is exactly the references and the storage that objects had when they were initialised again, and what those references lead to; nothing is left at the end exactly if there were none. C54_no_crash_depth_partial: the stack must have room for the depth to which lists are nested, not for the length of the history. C54_depth_exact: n + 1 lists, each in the next, crash when dropped exactly if they are more than the frames of the stack."
  },
  {
   "property": "C55",
   "status": "partial",
   "theorems": [
    "Verif.Props.C55_value_arguments",
    "Verif.Props.C55_index_arguments",
    "Verif.Props.C55_insert",
    "Verif.Props.C55_index",
    "Verif.Props.C55_slice",
    "Verif.Props.C55_extend",
    "Verif.Props.C55_setitem_partial",
    "Verif.Props.C55_setitem_negation",
    "Verif.Props.C55_setitem_exact",
    "Verif.Props.C55_index_negation",
    "Verif.Props.C55_slice_assignment_partial",
    "Verif.Props.C55_slice_assignment_plain",
    "Verif.Props.C55_slice_assignment_negation",
    "Verif.Props.C55_compare_partial",
    "Verif.Props.C55_compare_plain",
    "Verif.Props.C55_compare_negation",
    "Verif.Props.C55_ne_negation",
    "Verif.Props.C55_eq_exact",
    "Verif.Props.C55_ne_exact",
    "Verif.Props.C55_order_exact",
    "Verif.Props.C55_slice_assignment_exact",
    "Verif.Props.C55_linked_value_arguments",
    "Verif.Props.C55_linked_index_arguments",
    "Verif.Props.C55_linked_insert",
    "Verif.Props.C55_linked_index",
    "Verif.Props.C55_linked_slice",
    "Verif.Props.C55_linked_append_partial",
    "Verif.Props.C55_linked_append_negation",
    "Verif.Props.C55_linked_extend_partial",
    "Verif.Props.C55_linked_extend_negation",
    "Verif.Props.C55_linked_extend_stops",
    "Verif.Props.C55_linked_setitem_partial",
    "Verif.Props.C55_linked_setitem_negation",
    "Verif.Props.C55_linked_setitem_exact",
    "Verif.Props.C55_linked_index_negation",
    "Verif.Props.C55_linked_slice_assignment_partial",
    "Verif.Props.C55_linked_slice_assignment_plain",
    "Verif.Props.C55_linked_slice_assignment_negation",
    "Verif.Props.C55_linked_slice_del_negation",
    "Verif.Props.C55_linked_compare_partial",
    "Verif.Props.C55_linked_compare_plain",
    "Verif.Props.C55_linked_compare_negation",
    "Verif.Props.C55_linked_ne_negation",
    "Verif.Props.C55_linked_eq_exact",
    "Verif.Props.C55_linked_ne_exact",
    "Verif.Props.C55_linked_order_exact",
    "Verif.Props.C55_linked_slice_assignment_exact"
   ],
   "note": "Array lists and IntLinkedList (C55_linked_*). append, remove, count, insert, index with explicit bounds, `l[i]`, `del l[i]`, slices, extend and `+=` behave as expected for arbitrary foreign code. Violated (negations): `l[i] = x`, slice assignment and comparisons read or write outside of a list that foreign code has shortened; `!=` follows a null pointer if `__getitem__` raises; index uses an outdated default for stop. For these, safety is proved for code that never shortens the list, and the result for code that leaves it alone. IntLinkedList also: append returns a result with -1 stored and the exception pending when the argument raises, extend stores -1 before it raises (negations), and the same operations use freed nodes; safety is proved for code that removes no node, results for code that leaves the list alone. Not modelled: finalisers, constructing from a list or tuple whose items change it (object lists: C56).  C55_setitem_exact and C55_linked_setitem_exact say exactly when item assignment leaves the list; C55_eq_exact, C55_ne_exact, C55_order_exact and C55_slice_assignment_exact say so for the comparisons and slice assignments of array lists, C55_linked_eq_exact, C55_linked_ne_exact, C55_linked_order_exact and C55_linked_slice_assignment_exact for those of IntLinkedList.  Raising `__len__` and `__length_hint__` during extend: C68."
  },
  {
   "property": "C56",
   "status": "partial",
   "theorems": [
    "Verif.Props.C56_clear_partial",
    "Verif.Props.C56_delete_partial",
    "Verif.Props.C56_set_slice_partial",
    "Verif.Props.C56_compare_partial",
    "Verif.Props.C56_clear_read_null",
    "Verif.Props.C56_clear_append_freed",
    "Verif.Props.C56_delete_append_freed",
    "Verif.Props.C56_set_slice_append_freed",
    "Verif.Props.C56_clear_append_lost",
    "Verif.Props.C56_compare_clear",
    "Verif.Props.C56_compare_dead"
   ],
   "note": "Object lists down to their cells and reference counts, elements with arbitrary methods. clear, del l[i], slice assignment of equal length, == and != behave as for Python lists when the methods of the elements do not touch the list. Violated (negations): during clear a finaliser finds null pointers, or moves the block that is then written, or its element is lost; the same for del and slice assignment; == and != go on over a list emptied by __eq__, and pass on a destroyed element."
  },
  {
   "property": "C57",
   "status": "partial",
   "theorems": [
    "Verif.Props.C57_fputs_partial",
    "Verif.Props.C57_fputs_nul",
    "Verif.Props.C57_fgets_partial",
    "Verif.Props.C57_fgets_step_partial",
    "Verif.Props.C57_fgets_end",
    "Verif.Props.C57_fgets_one",
    "Verif.Props.C57_fgets_split",
    "Verif.Props.C57_fgets_nul",
    "Verif.Props.C57_fgets_size",
    "Verif.Props.C57_fgets_leak",
    "Verif.Props.C57_fputs_exact",
    "Verif.Props.C57_fgets_exact"
   ],
   "note": "fputs for strings without zero characters, over all histories; fgets for texts that are ASCII or whose lines fit the buffer, all sizes from 2 to 2^31 - 1. Violated (negations): fputs cuts at a zero character; fgets raises at the end instead of returning an empty string, makes no progress with size 1, cuts sizes to 32 bits, destroys a multi-byte character at the end of the buffer, loses the rest of a line after a zero character, and never frees its buffer. Exact (iff): the histories of fputs that lose nothing, and the sizes at which fgets returns what it should."
  },
  {
   "property": "C58",
   "status": "partial",
   "theorems": [
    "Verif.Props.C58_call_void_long_long",
    "Verif.Props.C58_call_int_partial",
    "Verif.Props.C58_call_int_negation",
    "Verif.Props.C58_call_int_exact",
    "Verif.Props.C58_call_partial",
    "Verif.Props.C58_call_pointer",
    "Verif.Props.C58_call_pair_negation",
    "Verif.Props.C58_call_refused"
   ],
   "note": "callVoid, callLongLong and refusals for all functions; call for sizes up to 8, and for larger sizes as a copy from the returned address. Violated (negations): callInt on 3.12+ for values outside 1..2^30-1; call with sizes 9 to 16 takes a register for an address. callInt exactly (iff)."
  },
  {
   "property": "C59",
   "status": "partial",
   "theorems": [
    "Verif.Props.C59_repr_partial",
    "Verif.Props.C59_text",
    "Verif.Props.C59_cycle_negation",
    "Verif.Props.C59_cycle_python",
    "Verif.Props.C59_clear_array",
    "Verif.Props.C59_clear_linked",
    "Verif.Props.C59_shrink_repeats",
    "Verif.Props.C59_exact"
   ],
   "note": "Both object lists, nested to any depth, with elements whose __repr__ replaces elements at most: text, exceptions, RecursionError at the same depth, and contents as for Python lists (C59_text gives the text in closed form). Violated (negations): lists that contain themselves always raise RecursionError; an element whose __repr__ clears the list makes the call read behind the end or a freed node; one that shortens the list is shown twice. Exact (iff) for elements whose __repr__ changes and raises nothing: lists without cycles."
  },
  {
   "property": "C60",
   "status": "partial",
   "theorems": [
    "Verif.Props.C60_array_partial",
    "Verif.Props.C60_linked_partial",
    "Verif.Props.C60_array_history_partial",
    "Verif.Props.C60_linked_history_partial",
    "Verif.Props.C60_array_enough",
    "Verif.Props.C60_linked_enough",
    "Verif.Props.C60_linked_copy_exact",
    "Verif.Props.C60_create_linked_same",
    "Verif.Props.C60_resize_huge",
    "Verif.Props.C60_extend_array_negation",
    "Verif.Props.C60_hint_negation",
    "Verif.Props.C60_extend_linked_negation",
    "Verif.Props.C60_imul_array_negation",
    "Verif.Props.C60_imul_linked_negation",
    "Verif.Props.C60_slice_leak_negation",
    "Verif.Props.C60_slice_array_negation",
    "Verif.Props.C60_slice_linked_negation",
    "Verif.Props.C60_create_array_negation",
    "Verif.Props.C60_create_array_iter_negation",
    "Verif.Props.C60_create_linked_negation"
   ],
   "note": "Every call but extend, +=, *= and slice assignment, on both object lists, for every machine: as with unlimited memory, or RuntimeError with elements and all counts unchanged; histories; with enough memory every call is that of the unlimited model. Violated (negations): a refusal in extend or += ends the process, as does an iterator announcing too much; *= and slice assignment leave the list changed, the latter of ObjectArrayList with a leaked reference; *= of ObjectArrayList with n >= 2 raises on every machine; failing constructors leak references."
  },
  {
   "property": "C61",
   "status": "partial",
   "theorems": [
    "Verif.Props.C61_array_calls",
    "Verif.Props.C61_array_history",
    "Verif.Props.C61_array_no_trace",
    "Verif.Props.C61_init",
    "Verif.Props.C61_sort_key",
    "Verif.Props.C61_iterator",
    "Verif.Props.C61_iterator_next",
    "Verif.Props.C61_linked_calls_partial",
    "Verif.Props.C61_linked_history_partial",
    "Verif.Props.C61_linked_getitem_leaks",
    "Verif.Props.C61_linked_list_leaks",
    "Verif.Props.C61_linked_add_leaks",
    "Verif.Props.C61_linked_eq_leaks",
    "Verif.Props.C61_linked_negation",
    "Verif.Props.C61_linked_exact",
    "Verif.Props.C61_linked_history",
    "Verif.Props.C61_linked_no_trace_exact",
    "Verif.Props.C61_linked_self_compare"
   ],
   "note": "Proved in full for IntArrayList and BigIntArrayList (every call, histories with the caller's own handling of references), for the constructors, for sort with any key function and for iterators. IntLinkedList: every call but l[i], l[a:b], to_list, +, and comparisons and slice assignments with an IntLinkedList; violated by these (negations: l[i] leaks one reference, the others one per element). C61_linked_exact: the number of references lost is given exactly for every call of IntLinkedList.  Histories of IntLinkedList with the exact number of references lost: C61_linked_history."
  },
  {
   "property": "C62",
   "status": "partial",
   "theorems": [
    "Verif.Props.C62_array_partial",
    "Verif.Props.C62_linked_partial",
    "Verif.Props.C62_object_array_partial",
    "Verif.Props.C62_object_linked_partial",
    "Verif.Props.C62_empty",
    "Verif.Props.C62_linked_bad_call",
    "Verif.Props.C62_bad_call_negation",
    "Verif.Props.C62_memory_partial",
    "Verif.Props.C62_memory_negation",
    "Verif.Props.C62_shrunk_negation",
    "Verif.Props.C62_no_room",
    "Verif.Props.C62_exception_negation",
    "Verif.Props.C62_subclass_negation"
   ],
   "note": "Binding of arguments is proved for every call; elements are exact for all five classes except for the cases with negations: the array lists answer a wrong call with an empty list while the exception is set; the int lists keep the address of the storage of a given Python list while the code of its elements runs, and read freed memory if that code moves the list; exceptions of elements and of `__iter__` are replaced by RuntimeError and TypeError; subclasses of list with their own `__iter__` are read as bare lists. Truncated ints: C49."
  },
  {
   "property": "C63",
   "status": "partial",
   "theorems": [
    "Verif.Props.C63_memcpy",
    "Verif.Props.C63_memcpyAligned_dichotomy",
    "Verif.Props.C63_memcpyAligned",
    "Verif.Props.C63_reverse_partial",
    "Verif.Props.C63_reverseLongDouble_negation",
    "Verif.Props.C63_reverseLongDouble_exact",
    "Verif.Props.C63_wrong_number",
    "Verif.Props.C63_bad_count_negation",
    "Verif.Props.C63_bad_address_negation",
    "Verif.Props.C63_pending_negation"
   ],
   "note": "memcpyX: full. memcpyXAligned: done if both addresses have the alignment the instructions need, always with multiples of 64, a fault otherwise. reverseX: full for all types but long double on AVX2 (negation, C39). Wrong numbers of arguments raise. Violated (negations): conversions are not checked, so that an invalid number of elements makes every method run over the whole address space, an invalid address is taken for 0 or 2^64 - 1, and with nothing to do the exception is left set. reverseLongDouble exactly (iff): equal halves where the AVX2 loop is used."
  },
  {
   "property": "C64",
   "status": "partial",
   "theorems": [
    "Verif.Props.C64_names",
    "Verif.Props.C64_exact_partial",
    "Verif.Props.C64_refused",
    "Verif.Props.C64_pop_negation",
    "Verif.Props.C64_sort_positional_negation",
    "Verif.Props.C64_sort_reverse_negation",
    "Verif.Props.C64_array_exact",
    "Verif.Props.C64_linked_exact",
    "Verif.Props.C64_ObjectArrayList_exact",
    "Verif.Props.C64_ObjectLinkedList_exact"
   ],
   "note": "Exact: a call asks for what is documented iff it is none of the deviating calls (pop of an empty list with two or more arguments: IndexError; sort with positional arguments, with a value of reverse that is not a C int, or on an int list without key with one that is neither 0 nor 1). End to end for the int lists with C03 and C24. Not here: __class_getitem__, __init__ (C62), what is inherited from object. End to end for the object lists with C33."
  },
  {
   "property": "C65",
   "status": "partial",
   "theorems": [
    "Verif.Props.C65_exact_partial",
    "Verif.Props.C65_method_call",
    "Verif.Props.C65_after_call",
    "Verif.Props.C65_fetch_negation",
    "Verif.Props.C65_call_negation",
    "Verif.Props.C65_assign_negation",
    "Verif.Props.C65_with",
    "Verif.Props.C65_tool_negation",
    "Verif.Props.C65_classes"
   ],
   "note": "Exact over all histories: a step shows what it should iff the class was prepared by an earlier step of the program or the step does not need it. Violated (negations): PyType_Ready is never called by the library, so that until the first plain method call (or reference to the class's attributes) getattr raises, hasattr is False, calls with stars, and before 3.11 with keywords, raise AttributeError. CPython's behaviour on such types is part of the model; specialisation of instructions in 3.11 is left out.  The four classes of pyfastutil.unsafe are included: C65_with, C65_tool_negation."
  },
  {
   "property": "C66",
   "status": "partial",
   "theorems": [
    "Verif.Props.C66_linked_partial",
    "Verif.Props.C66_linked_reverse_ends",
    "Verif.Props.C66_linked_clear_uaf",
    "Verif.Props.C66_linked_clear_any_uaf",
    "Verif.Props.C66_linked_pop_uaf",
    "Verif.Props.C66_linked_torn",
    "Verif.Props.C66_obj_partial",
    "Verif.Props.C66_obj_reverse_ends",
    "Verif.Props.C66_obj_append_uaf",
    "Verif.Props.C66_obj_pop_dangles",
    "Verif.Props.C66_partial",
    "Verif.Props.C66_reverse_ends",
    "Verif.Props.C66_reverse_append_uaf",
    "Verif.Props.C66_reverse_torn",
    "Verif.Props.C66_reverse_pop",
    "Verif.Props.C66_imul_length",
    "Verif.Props.C66_imul_loses",
    "Verif.Props.C66_mul_append_uaf"
   ],
   "note": "Proved for all five lists and all schedules in which no other thread uses a list while it is being reversed (int array lists: nor changes it while it is being repeated); a reverse in progress always ends, within a bound in the length. Violated otherwise (negations): use after free when another thread appends to an array list during reverse or *, or clears or pops from a linked list; a moment at which another thread sees neither the list nor its reverse (every list that is not its own reverse); popped elements that come back, for object lists as freed objects; appends lost by *= 1 (exactly when the length has changed). Accesses are interleaved (no weaker memory model); for ObjectArrayList one list."
  },
  {
   "property": "C67",
   "status": "partial",
   "theorems": [
    "Verif.Props.C67_all_or_raise",
    "Verif.Props.C67_exact",
    "Verif.Props.C67_again_partial",
    "Verif.Props.C67_again_negation",
    "Verif.Props.C67_abort_negation",
    "Verif.Props.C67_leak_negation"
   ],
   "note": "Proved after every history: an import that does not raise binds exactly the documented names. The first import exactly (iff): when it succeeds. From 3.12 on, after every history, an import during which nothing fails succeeds. Violated (negations): up to 3.11, a collection can make the library forget a failed part, and then no later import of the module that needs it succeeds; the memory of the sorting tables, if refused, ends the process; parts that could not be added are never freed (exactly which)."
  },
  {
   "property": "C68",
   "status": "partial",
   "theorems": [
    "Verif.Props.C68_hint_works",
    "Verif.Props.C68_taken",
    "Verif.Props.C68_hint_fails_partial",
    "Verif.Props.C68_exact",
    "Verif.Props.C68_item_lost",
    "Verif.Props.C68_stop_swallowed",
    "Verif.Props.C68_ObjectArrayList_works",
    "Verif.Props.C68_ObjectArrayList_exact",
    "Verif.Props.C68_ObjectArrayList_leak",
    "Verif.Props.C68_linked_negation"
   ],
   "note": "If asking works: proved that the outcome is that of any other iterator. If it fails: nothing is stored and the call raises (partial); exactly when it does what Python does (iff). Violated (negations): one item is taken from the iterator; ObjectArrayList never gives its reference back; StopIteration from the hint goes unnoticed if there are no items; linked lists do not ask at all. Iterators and conversions that run Python code while the exception is pending are not modelled. C68_taken: which items are taken when a call raises."
  },
  {
   "property": "C69",
   "status": "partial",
   "theorems": [
    "Verif.Props.C69_balanced",
    "Verif.Props.C69_with_partial",
    "Verif.Props.C69_make_exact",
    "Verif.Props.C69_exit_exact",
    "Verif.Props.C69_make_negation",
    "Verif.Props.C69_exit_negation"
   ],
   "note": "Proved for all programs: no use of an object that is gone, reference counts equal to the number of variables, each object given back exactly once. Proved for programs with the documented arguments: what they see and raise. Exactly when constructor and __exit__ calls do what their signatures say (iff). Violated (negations): the constructors take any arguments; __exit__ takes any number of positional arguments and refuses its own parameters by name. Subclasses written in Python are not modelled."
  },
  {
   "property": "C70",
   "status": "partial",
   "theorems": [
    "Verif.Props.C70_names",
    "Verif.Props.C70_exact_partial",
    "Verif.Props.C70_reached",
    "Verif.Props.C70_no_fault",
    "Verif.Props.C70_asm_negation",
    "Verif.Props.C70_asm_fast_negation"
   ],
   "note": "Exact (iff) for all names and arguments; for Unsafe and SIMD without exceptions but __exit__. Violated (negations): the functions of ASM raise NotImplementedError away from Windows, before they look at the number of arguments; on Windows the three ...Fast functions look at an argument that may not be there; __exit__ does not count its arguments (C69)."
  }
 ]
}