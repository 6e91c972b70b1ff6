{
 "claims": [
  {
   "property": "C01",
   "status": "partial",
   "theorems": [
    "Verif.C01_push_aligned",
    "Verif.C01_push_unaligned_stored_partial",
    "Verif.C01_push_unaligned_partial",
    "Verif.C01_push_aligned_returns",
    "Verif.C01_push_unaligned_returns_partial",
    "Verif.C01_counterexample",
    "Verif.C01_push_sized_partial",
    "Verif.C01_push_sized_returns_partial",
    "Verif.C01_push_zst_unaligned_debug",
    "Verif.C01_push_zst_unaligned_release"
   ],
   "note": "Aligned: full. Unaligned: excludes over-aligned zero-sized values on a vector without memory (ZstOk); for every such push the claim is refuted (C01_push_zst_unaligned_debug, C01_push_zst_unaligned_release, C01_counterexample). Sized: full for elements of non-zero size (zero size: see C35). C01_push_unaligned_stored_partial also covers byte capacities that are not a multiple of the alignment (after shrinking); the excluded case RoomOk is refuted by C20_push_unaligned_overfull."
  },
  {
   "property": "C02",
   "status": "partial",
   "theorems": [
    "Verif.C02_counterexample",
    "Verif.C02_popInto_aligned",
    "Verif.C02_popInto_exact_partial",
    "Verif.C02_popInto_unaligned",
    "Verif.C02_popInto_sized"
   ],
   "note": "All three kinds of vectors, every element type including zero-sized elements and slices of them: bytes, size and metadata. The alignment is right for dynamically aligned and sized elements, slices and str (C02_popInto_exact_partial), and wrong for CStr (C02_counterexample, C60)."
  },
  {
   "property": "C03",
   "status": "partial",
   "theorems": [
    "Verif.C03_insert_aligned_partial",
    "Verif.C03_insert_unaligned_stored_partial",
    "Verif.C03_insert_unaligned_partial",
    "Verif.C03_insert_out_aligned",
    "Verif.C03_insert_out_unaligned",
    "Verif.C03_counterexample_aligned",
    "Verif.C03_counterexample_unaligned",
    "Verif.C03_C04_counterexample_end",
    "Verif.C03_insert_aligned_exact",
    "Verif.C03_insert_unaligned_exact",
    "Verif.C03_insert_zst_aligned",
    "Verif.C03_insert_zst_unaligned",
    "Verif.C03_insert_aligned_wrong",
    "Verif.C03_insert_unaligned_wrong",
    "Verif.C03_insert_unaligned_end",
    "Verif.C03_insert_aligned_outside",
    "Verif.C03_insert_sized_partial",
    "Verif.C03_insert_out_sized"
   ],
   "note": "insert puts the element at byte offset = index; the claim as stated is refuted. C03_insert_*_partial: right where the bytes before the index equal the index. C03_insert_*_exact: what the contents are otherwise; C03_insert_*_wrong: every other index is wrong for some value, in every vector; C03_insert_zst_*: zero-sized elements are right; C03_insert_unaligned_end, C03_insert_aligned_outside: undefined behaviour. Sized: full for elements of non-zero size (zero size: see C35). C03_insert_unaligned_stored_partial: also on odd byte capacities."
  },
  {
   "property": "C04",
   "status": "partial",
   "theorems": [
    "Verif.C03_C04_counterexample_end",
    "Verif.C04_insertWith_aligned",
    "Verif.C04_pushWith_aligned",
    "Verif.C04_insertWith_unaligned_partial",
    "Verif.C04_pushWith_unaligned_partial",
    "Verif.C04_insertWith_out_aligned",
    "Verif.C04_insertWith_out_unaligned",
    "Verif.C04_insertWith_unaligned_end",
    "Verif.C04_insertWith_sized",
    "Verif.C04_pushWith_sized",
    "Verif.C04_insertWith_out_sized",
    "Verif.C04_pushWith_zst_unaligned"
   ],
   "note": "Aligned: full. Unaligned: excludes insertion at the end over padding, which is undefined behaviour in every case (C04_insertWith_unaligned_end), and over-aligned zero-sized values. Sized: full, including zero-sized elements."
  },
  {
   "property": "C05",
   "status": "partial",
   "theorems": [
    "Verif.C05_counterexample_cstr",
    "Verif.C05_removeInto_aligned",
    "Verif.C05_removeInto_exact_partial",
    "Verif.C05_removeInto_unaligned_partial",
    "Verif.C05_removeInto_out_aligned",
    "Verif.C05_removeInto_out_unaligned",
    "Verif.C05_counterexample",
    "Verif.C05_removeInto_unaligned_end",
    "Verif.C05_removeInto_sized",
    "Verif.C05_removeInto_out_sized"
   ],
   "note": "Aligned: full, but for CStr announced with a wrong alignment (C05_counterexample_cstr). Unaligned: excludes removal of the last element over padding, which is undefined behaviour for every emplacer that returns (C05_removeInto_unaligned_end). Sized: full, including zero-sized elements."
  },
  {
   "property": "C06",
   "status": "proved",
   "theorems": [
    "Verif.C06_get_aligned",
    "Verif.C06_get_unaligned",
    "Verif.C06_get_out_aligned",
    "Verif.C06_get_out_unaligned",
    "Verif.C06_get_sized",
    "Verif.C06_get_out_sized"
   ],
   "note": "All three kinds of vectors, every element type including zero-sized elements and slices of them."
  },
  {
   "property": "C07",
   "status": "proved",
   "theorems": [
    "Verif.C07_store_aligned",
    "Verif.C07_store_unaligned",
    "Verif.C07_disjoint_aligned",
    "Verif.C07_disjoint_unaligned",
    "Verif.C07_store_sized",
    "Verif.C07_disjoint_sized"
   ],
   "note": "All three kinds of vectors, every element type including zero-sized elements and slices of them."
  },
  {
   "property": "C08",
   "status": "proved",
   "theorems": [
    "Verif.C08_next_unaligned",
    "Verif.C08_next_aligned",
    "Verif.C08_C09_C10_calls_sized"
   ],
   "note": "All three kinds of vectors, every element type including zero-sized elements and slices of them."
  },
  {
   "property": "C09",
   "status": "partial",
   "theorems": [
    "Verif.C09_nth_unaligned_partial",
    "Verif.C09_nth_aligned_partial",
    "Verif.C09_last_unaligned_partial",
    "Verif.C09_last_aligned_partial",
    "Verif.C09_counterexample_aligned",
    "Verif.C09_counterexample_unaligned",
    "Verif.C09_counterexample_last",
    "Verif.C09_nth_unaligned",
    "Verif.C09_nth_aligned",
    "Verif.C09_last_unaligned",
    "Verif.C09_last_aligned",
    "Verif.C08_C09_C10_calls_sized"
   ],
   "note": "nth(0) after the front has moved, and last() with one element left after the front has moved, return a wrong reference: C09_nth_*, C09_last_* say which one, for every iterator. Everything else proved. Sized: full, including zero-sized elements."
  },
  {
   "property": "C10",
   "status": "partial",
   "theorems": [
    "Verif.C10_calls_unaligned_partial",
    "Verif.C10_calls_aligned_partial",
    "Verif.C10_split",
    "Verif.C10_rev_unaligned",
    "Verif.C10_rev_aligned",
    "Verif.C10_C11_counterexample_unaligned",
    "Verif.C10_C11_counterexample_aligned",
    "Verif.C10_allCalls_unaligned",
    "Verif.C10_allCalls_aligned",
    "Verif.C10_wrong_unaligned",
    "Verif.C10_wrong_aligned",
    "Verif.C08_C09_C10_calls_sized"
   ],
   "note": "next_back for the sole remaining element after the front has moved returns a wrong, overlapping reference. C10_allCalls_*: for every call sequence without any condition, exactly which calls are at fault and what they return; C10_wrong_*: such a result is right iff the elements before have no bytes. iter().rev() in full. Sized: full, including zero-sized elements."
  },
  {
   "property": "C11",
   "status": "partial",
   "theorems": [
    "Verif.C11_disjoint_unaligned_partial",
    "Verif.C11_disjoint_aligned_partial",
    "Verif.C11_loop_unaligned",
    "Verif.C11_loop_aligned",
    "Verif.C10_C11_counterexample_unaligned",
    "Verif.C10_C11_counterexample_aligned",
    "Verif.C11_overlap_unaligned",
    "Verif.C11_overlap_aligned"
   ],
   "note": "Full for loops with next; for mixed calls under the same guard as C10 (C11_overlap_*: outside it the reference overlaps with the ones given out before)."
  },
  {
   "property": "C12",
   "status": "partial",
   "theorems": [
    "Verif.C12_try_aligned",
    "Verif.C12_try_unaligned_partial",
    "Verif.C12_run_aligned",
    "Verif.C12_run_unaligned_partial",
    "Verif.C12_with_capacity_aligned",
    "Verif.C12_with_capacity_unaligned_partial",
    "Verif.C12_counterexample",
    "Verif.C12_counterexample_with_capacity",
    "Verif.C12_try_sized_partial",
    "Verif.C12_run_sized_partial",
    "Verif.C12_with_capacity_sized_partial",
    "Verif.C12_counterexample_sized",
    "Verif.C12_exact_sized_ignored",
    "Verif.C12_exact_sized_oneMore",
    "Verif.C12_try_unaligned_alignOnly"
   ],
   "note": "Aligned: full. Unaligned: everything except that a reservation raising only the alignment of a vector without memory never changes align() (C12_try_unaligned_alignOnly, for all such vectors; C12_counterexample). Sized: the byte part is refuted (C12_counterexample_sized; C12_exact_sized_ignored and C12_exact_sized_oneMore for all vectors); proved under BytesOk."
  },
  {
   "property": "C13",
   "status": "partial",
   "theorems": [
    "Verif.C13_try_aligned",
    "Verif.C13_try_unaligned",
    "Verif.C13_try_sized_partial",
    "Verif.C13_counterexample_sized",
    "Verif.C13_try_sized_raised",
    "Verif.C13_try_sized_always"
   ],
   "note": "Aligned and unaligned: full. Sized: contents never change; capacity may grow although Err is returned (C13_counterexample_sized; for all vectors C13_try_sized_raised, C13_try_sized_always)."
  },
  {
   "property": "C14",
   "status": "partial",
   "theorems": [
    "Verif.C14_debug_noErr_aligned",
    "Verif.C14_debug_noErr_unaligned",
    "Verif.C14_debug_panics_aligned",
    "Verif.C14_debug_panics_unaligned",
    "Verif.C14_try_aligned_partial",
    "Verif.C14_try_unaligned_partial",
    "Verif.C14_debug_unaligned",
    "Verif.C14_debug_aligned",
    "Verif.C14_counterexample",
    "Verif.C14_try_sized_partial",
    "Verif.C14_counterexample_sized",
    "Verif.C14_debug_sized_panics"
   ],
   "note": "Release builds: full. In debug builds the amortised methods panic instead of returning Err whenever bytes are lacking (C14_debug_noErr_*, C14_debug_panics_*, for all vectors; C14_counterexample). Sized: same, and debug builds also panic on requests that were satisfied (C14_counterexample_sized; for all vectors C14_debug_sized_panics)."
  },
  {
   "property": "C15",
   "status": "partial",
   "theorems": [
    "Verif.C15_fill_aligned",
    "Verif.C15_fill_unaligned",
    "Verif.C15_fill_sized",
    "Verif.C15_push_aligned",
    "Verif.C15_push_unaligned",
    "Verif.C15_insert_aligned_partial",
    "Verif.C15_insert_unaligned_partial",
    "Verif.C15_counterexample",
    "Verif.C15_pushWith_aligned_grows",
    "Verif.C15_insertWith_aligned_grows",
    "Verif.C15_pushWith_unaligned_grows",
    "Verif.C15_insertWith_unaligned_grows",
    "Verif.C15_push_sized_partial",
    "Verif.C15_insert_sized_partial"
   ],
   "note": "push and insert never reallocate with spare room; push_with and insert_with enlarge the storage every time, whatever the room (C15_*With_*_grows, for all vectors and emplacables; C15_counterexample). Sized: full for elements of non-zero size (zero size: see C35). For sequences of pushes: C15_fill_*."
  },
  {
   "property": "C16",
   "status": "partial",
   "theorems": [
    "Verif.C16_push_aligned",
    "Verif.C16_push_unaligned_partial",
    "Verif.C16_counterexample",
    "Verif.C16_total_aligned",
    "Verif.C16_total_unaligned_partial",
    "Verif.C16_total_raising_partial"
   ],
   "note": "Aligned: full. Unaligned: a reallocation caused only by a stricter alignment does not double (C16_counterexample). Sized: growth is that of std's Vec, whose doubling is a hypothesis there (C68_pushes_sized)."
  },
  {
   "property": "C17",
   "status": "partial",
   "theorems": [
    "Verif.C17_exact_aligned_grows",
    "Verif.C17_exact_unaligned_grows",
    "Verif.C17_exact_aligned_err",
    "Verif.C17_exact_unaligned_err",
    "Verif.C17_reserve_exact_unaligned_partial",
    "Verif.C17_reserve_exact_aligned_partial",
    "Verif.C17_reserve_unaligned",
    "Verif.C17_reserve_aligned",
    "Verif.C17_counterexample",
    "Verif.C17_counterexample_aligned",
    "Verif.C17_reserve_sized_partial"
   ],
   "note": "Refuted for the exact family for every request of bytes (C17_exact_*_grows, C17_exact_*_err, for all vectors; C17_counterexample); holds for zero bytes and for the non-exact family. Sized: full for elements of non-zero size (zero size: see C35)."
  },
  {
   "property": "C18",
   "status": "partial",
   "theorems": [
    "Verif.C18_shrink_aligned",
    "Verif.C18_shrink_unaligned_partial",
    "Verif.C18_shrink_unaligned_keep_align",
    "Verif.C18_counterexample",
    "Verif.C18_shrink_unaligned_two",
    "Verif.C18_counterexample_ub",
    "Verif.C18_shrink_unaligned_first",
    "Verif.C18_shrink_unaligned_wrong",
    "Verif.C18_shrink_sized_partial"
   ],
   "note": "Statically aligned: unconditional. Dynamically aligned: unconditional for shrink_to and shrink_capacity_bytes_to; for shrink_to_fit and shrink_capacity_bytes_align_to provided that lowering the alignment does not change padding between elements (C18_counterexample shows corruption otherwise, C18_counterexample_ub undefined behaviour, and C18_shrink_unaligned_two says for every vector of two elements what is then read; C18_shrink_unaligned_first does so for the first wrong element of vectors of any length, and C18_shrink_unaligned_wrong shows that the proviso is necessary for every shape of vector whose element behind the changed padding has a byte). Sized: full for elements of non-zero size (zero size: see C35)."
  },
  {
   "property": "C19",
   "status": "partial",
   "theorems": [
    "Verif.C19_shrink_aligned",
    "Verif.C19_shrink_unaligned_partial",
    "Verif.C19_shrink_sized_partial",
    "Verif.C19_shrink_to_sized_counterexample"
   ],
   "note": "Statically aligned: full. Dynamically aligned: under the same guard as C18. Sized: everything but shrink_to, which does nothing (C19_shrink_to_sized_counterexample)."
  },
  {
   "property": "C20",
   "status": "partial",
   "theorems": [
    "Verif.C20_C24_C31_program_aligned_partial",
    "Verif.C20_C24_C31_program_unaligned_partial",
    "Verif.C20_program_sized_partial",
    "Verif.C20_shrink_unaligned_partial",
    "Verif.C20_shrink_to_unaligned",
    "Verif.C20_counterexample",
    "Verif.C20_push_unaligned_overfull",
    "Verif.C20_shrink_unaligned_overfull"
   ],
   "note": "After every program of covered calls on any of the three kinds of vector (C20_C24_C31_program_*, C20_program_sized). Programs may shrink to a byte capacity that is not a multiple of the alignment; then the pushes and inserts of elements that fit, but not with their padding, are not covered, for which C20_counterexample and, for every such vector, C20_push_unaligned_overfull and C20_shrink_unaligned_overfull show that the code breaks the invariant. Not covered either: the calls with other defects. Programs over sized vectors include zero-sized elements, for which the calls that divide by the size (C35) are the uncovered ones."
  },
  {
   "property": "C21",
   "status": "proved",
   "theorems": [
    "Verif.C21_drop_unaligned",
    "Verif.C21_drop_aligned",
    "Verif.C21_drop_unaligned_returns",
    "Verif.C21_drop_aligned_returns",
    "Verif.C21_drop_sized"
   ],
   "note": "All three kinds of vectors, every element type including zero-sized elements and slices of them, and panicking destructors."
  },
  {
   "property": "C22",
   "status": "partial",
   "theorems": [
    "Verif.C22_unsize_unaligned_partial",
    "Verif.C22_unsize_aligned_partial",
    "Verif.C22_unsize_unaligned_shifted",
    "Verif.C22_unsize_aligned_shifted",
    "Verif.C22_counterexample_unaligned",
    "Verif.C22_counterexample_aligned",
    "Verif.C22_counterexample_drop",
    "Verif.C22_run_unaligned_partial",
    "Verif.C22_run_aligned_partial",
    "Verif.C22_drop_unaligned",
    "Verif.C22_drop_unaligned_iff",
    "Verif.C22_unsize_aligned_holds",
    "Verif.C22_drop_aligned",
    "Verif.C22_run_no_overflow",
    "Verif.C22_counterexample_abort",
    "Verif.C22_counterexample_panic"
   ],
   "note": "Refuted (C22_counterexample_*): element i > 0 of the result is element i - 1 of the source, and the last one is lost; the theorems prove the claim for vectors without elements and for zero-sized elements, and exactly what happens otherwise."
  },
  {
   "property": "C23",
   "status": "partial",
   "theorems": [
    "Verif.C23_reserve_partial",
    "Verif.C23_push_partial"
   ],
   "note": "Reservation and push. Excludes over-aligned zero-sized values in a vector without memory (ZstOk, C01_counterexample)."
  },
  {
   "property": "C24",
   "status": "partial",
   "theorems": [
    "Verif.C20_C24_C31_program_aligned_partial",
    "Verif.C20_C24_C31_program_unaligned_partial",
    "Verif.C24_push_zst_unaligned_misaligned",
    "Verif.C24_pushWith_zst_unaligned_misaligned"
   ],
   "note": "After every program of covered calls. Uncovered calls: over-aligned zero-sized elements, where reading the element later is undefined behaviour (C24_push_zst_unaligned_misaligned, C24_pushWith_zst_unaligned_misaligned, C01_counterexample)."
  },
  {
   "property": "C25",
   "status": "partial",
   "theorems": [
    "Verif.C25_insertWith_aligned",
    "Verif.C25_pushWith_aligned",
    "Verif.C25_insertWith_unaligned_partial",
    "Verif.C25_pushWith_unaligned_partial",
    "Verif.C25_insertWith_sized",
    "Verif.C25_pushWith_sized"
   ],
   "note": "Unaligned guarded as C04. Sized: full, including zero-sized elements."
  },
  {
   "property": "C26",
   "status": "partial",
   "theorems": [
    "Verif.C26_removeInto_aligned",
    "Verif.C26_removeInto_unaligned",
    "Verif.C26_popInto_aligned",
    "Verif.C26_popInto_unaligned",
    "Verif.C26_popInto_sized",
    "Verif.C26_removeInto_sized_partial",
    "Verif.C26_removeInto_sized_actual",
    "Verif.C26_counterexample_sized"
   ],
   "note": "Aligned and unaligned: full. Sized: pop_into full, remove_into refuted (C26_counterexample_sized); what it actually does is proved."
  },
  {
   "property": "C27",
   "status": "partial",
   "theorems": [
    "Verif.C27_popInto_aligned",
    "Verif.C27_popInto_unaligned",
    "Verif.C27_removeInto_aligned_partial",
    "Verif.C27_removeInto_unaligned_partial",
    "Verif.C27_counterexample_unaligned",
    "Verif.C27_counterexample_aligned",
    "Verif.C27_removeInto_aligned_twice",
    "Verif.C27_removeInto_unaligned_twice",
    "Verif.C27_popInto_sized",
    "Verif.C27_removeInto_sized_partial",
    "Verif.C27_counterexample_sized",
    "Verif.C27_removeInto_sized_twice"
   ],
   "note": "pop_into: full. remove_into: refuted for every vector and element whose destructor panics (C27_removeInto_*_twice: destroyed twice); the partial theorems cover destructors that do not panic. Sized: the same, and the last element leaks (C27_removeInto_sized_twice)."
  },
  {
   "property": "C28",
   "status": "partial",
   "theorems": [
    "Verif.C28_slice",
    "Verif.C28_full",
    "Verif.C28_slice_lawful",
    "Verif.C28_full_lawful",
    "Verif.C28_push_get",
    "Verif.C28_unaligned",
    "Verif.C28_counterexample",
    "Verif.C28_slice_fits",
    "Verif.C28_full_fits",
    "Verif.C28_slice_stored",
    "Verif.C28_push_aligned",
    "Verif.C28_insert_aligned_partial",
    "Verif.C28_insertWith_aligned",
    "Verif.C28_pushWith_aligned"
   ],
   "note": "Slices of non-zero-sized elements, str, CStr, dynamically aligned types: full. Slices of zero-sized elements lose their length (C28_counterexample); for every statically aligned type the theorems say exactly what is stored (C28_push_aligned and so on)."
  },
  {
   "property": "C29",
   "status": "proved",
   "theorems": [
    "Verif.C29_checked_pad_to",
    "Verif.C29_unchecked_pad_to",
    "Verif.C29_new_padded_to",
    "Verif.C29_checked_add_pad",
    "Verif.C29_checked_add",
    "Verif.C29_new_squished_to",
    "Verif.C29_padded_layout_valid"
   ],
   "note": "for every pointer width"
  },
  {
   "property": "C30",
   "status": "proved",
   "theorems": [
    "Verif.C30_new_iff",
    "Verif.C30_new_none_iff",
    "Verif.C30_representable",
    "Verif.C30_variants",
    "Verif.C30_log2",
    "Verif.C30_to_align",
    "Verif.C30_shrink_rejects",
    "Verif.C30_reserve_exact_rejects",
    "Verif.C30_reserve_rejects"
   ],
   "note": "the reserve family may report a failed element reservation before it looks at the alignment"
  },
  {
   "property": "C31",
   "status": "partial",
   "theorems": [
    "Verif.C20_C24_C31_program_aligned_partial",
    "Verif.C20_C24_C31_program_unaligned_partial",
    "Verif.C31_requests_unaligned",
    "Verif.C31_requests_aligned",
    "Verif.C31_requests_program_unaligned",
    "Verif.C31_requests_program_aligned"
   ],
   "note": "For every program, from every state and whatever the allocator answers: no allocate, grow or shrink request is empty or invalid (C31_requests_*). After every program of covered calls the vector owns exactly the block it believes to own and none is leaked; a grow, shrink or deallocate with a layout that does not fit the block is undefined behaviour in the model and is excluded by C36 for covered calls. Dropping a vector without memory does call Global.deallocate with size zero, which is a no-op there. Sized vectors delegate to std's Vec and are not included."
  },
  {
   "property": "C32",
   "status": "partial",
   "theorems": [
    "Verif.C32_extend_aligned",
    "Verif.C32_extend_unaligned_partial",
    "Verif.C32_extend_sized_partial",
    "Verif.C32_extend_aligned_returns",
    "Verif.C32_extend_unaligned_returns_partial",
    "Verif.C32_extend_sized_returns_partial",
    "Verif.C32_fromIter_aligned",
    "Verif.C32_fromIter_unaligned_partial",
    "Verif.C32_fromIter_sized_partial",
    "Verif.C32_fromIter_aligned_returns",
    "Verif.C32_fromIter_unaligned_returns_partial",
    "Verif.C32_fromIter_sized_returns_partial",
    "Verif.C32_unsizedVec_aligned",
    "Verif.C32_unsizedVec_unaligned_partial",
    "Verif.C32_unsizedVec_sized_partial",
    "Verif.C32_unsizedVec_aligned_returns",
    "Verif.C32_unsizedVec_unaligned_returns_partial",
    "Verif.C32_unsizedVec_sized_returns_partial",
    "Verif.C32_counterexample_sized",
    "Verif.C32_counterexample_unaligned"
   ],
   "note": "extend, from_iter and unsized_vec!/unsize_vec!, for value items and emplacable items, including items and iterators that unwind or abort: full for statically aligned types; trait objects need every zero-sized item to have no stricter alignment than the still unallocated vector (C32_counterexample_unaligned); sized elements must not be zero-sized (C32_counterexample_sized). Slices of zero-sized elements lose their length (see C28)."
  },
  {
   "property": "C33",
   "status": "proved",
   "theorems": [
    "Verif.C33_eq",
    "Verif.C33_eq_iff",
    "Verif.C33_cmp",
    "Verif.C33_partialCmp",
    "Verif.C33_partialCmp_first",
    "Verif.C33_partialCmp_eq",
    "Verif.C33_cmp_lex",
    "Verif.C33_cmp_order",
    "Verif.C33_cmp_partialCmp",
    "Verif.C33_cmp_eq",
    "Verif.C33_eq_equivalence",
    "Verif.C33_hash",
    "Verif.C33_hash_eq",
    "Verif.C33_hash_concatenation"
   ],
   "note": "All three kinds of vectors, also of different kinds, with arbitrary programs as methods of the elements; order laws, agreement of ==, cmp, partial_cmp and hash."
  },
  {
   "property": "C34",
   "status": "partial",
   "theorems": [
    "Verif.C34_clone_partial",
    "Verif.C34_clone_equal_partial",
    "Verif.C34_counterexample_all",
    "Verif.C34_counterexample"
   ],
   "note": "Proved for elements with a size, including what happens if cloning an element panics. Partial because it is false for elements without size: cloning always panics (C34_counterexample, C34_counterexample_all)."
  },
  {
   "property": "C35",
   "status": "partial",
   "theorems": [
    "Verif.C35_push_counterexample",
    "Verif.C35_shrink_counterexample",
    "Verif.C35_reserve_counterexample",
    "Verif.C35_reserve_partial",
    "Verif.C35_pushWith_partial"
   ],
   "note": "Refuted for push, insert, reserve_exact, the byte reservations and all shrinking (division by zero, proved for every state); push_with, reserve and everything else proved."
  },
  {
   "property": "C36",
   "status": "partial",
   "theorems": [
    "Verif.C36_program_aligned_partial",
    "Verif.C36_program_sized_partial",
    "Verif.C36_program_unaligned_partial",
    "Verif.C36_counterexample_iter",
    "Verif.C36_program_unaligned_plain_partial",
    "Verif.C36_program_unaligned_shrink_partial"
   ],
   "note": "All programs of covered calls, panics caught; calls include arbitrary use of iterators from both ends, and writing through all the references that iter_mut returned. Uncovered calls are those for which a counterexample to one of C01, C03, C04, C05, C10, C18, C20, C27 exists (iterators: C36_counterexample_iter). Programs over sized vectors include zero-sized elements, for which the calls that divide by the size (C35) are the uncovered ones. Dynamically aligned: the parameter G of the theorems distinguishes programs that keep the byte capacity a multiple of the alignment from programs that need not (example progOdd). The theorems named _plain ask for conditions that refer to the program and the list only (UVec.Plain), not to the state of the vector."
  },
  {
   "property": "C37",
   "status": "partial",
   "theorems": [
    "Verif.C37_balance",
    "Verif.C37_life_aligned_partial",
    "Verif.C37_life_unaligned_partial",
    "Verif.C37_wholeLife_aligned_partial",
    "Verif.C37_wholeLife_unaligned_partial",
    "Verif.C37_wholeLife_sized_partial",
    "Verif.C37_wholeLife_unaligned_plain_partial",
    "Verif.C37_wholeLife_unaligned_shrink_partial"
   ],
   "note": "All programs of covered calls, and the life of a vector from construction to drop. Uncovered: as for C36. Programs over sized vectors include zero-sized elements, for which the calls that divide by the size (C35) are the uncovered ones. _plain: as for C36."
  },
  {
   "property": "C38",
   "status": "partial",
   "theorems": [
    "Verif.C38_boxNewWith_partial",
    "Verif.C38_boxNew",
    "Verif.C38_delivers",
    "Verif.C38_counterexample"
   ],
   "note": "box_new_with and box_new, for every sound emplacable and every emplacable that delivers a value. Not true when the emplacable unwinds after the value was built (C38_counterexample): the box is lost."
  },
  {
   "property": "C39",
   "status": "partial",
   "theorems": [
    "Verif.C39_take",
    "Verif.C39_value",
    "Verif.C39_box_partial",
    "Verif.C39_vector_partial",
    "Verif.C39_borrowed",
    "Verif.C39_array",
    "Verif.C39_array_values",
    "Verif.C39_get",
    "Verif.C39_counterexample_box",
    "Verif.C39_counterexample_vector",
    "Verif.C39_counterexample_unwinding"
   ],
   "note": "Value, box, vector, borrowed sources, arrays and iterators, with dropping, forgetting, getting and taking emplacers. Not true of boxes and vectors when a destructor panics or the emplacer unwinds (C39_counterexample_*): buffer and remaining elements are lost."
  },
  {
   "property": "C40",
   "status": "partial",
   "theorems": [
    "Verif.C40_any_emplacer",
    "Verif.C40_sound",
    "Verif.C40_runs_unique",
    "Verif.C40_emplacers",
    "Verif.C40_value",
    "Verif.C40_text",
    "Verif.C40_strToBytes",
    "Verif.C40_box",
    "Verif.C40_cloned",
    "Verif.C40_cloned_unwinds",
    "Verif.C40_copied_partial",
    "Verif.C40_unsize",
    "Verif.C40_unsize_drop",
    "Verif.C40_array",
    "Verif.C40_arrayToSlice",
    "Verif.C40_counterexample_copied",
    "Verif.C40_counterexample_copied_ub"
   ],
   "note": "Every source delivers its value to every emplacer that takes it. Not true of slices of Copy elements (C40_counterexample_copied*): the wide pointer is copied instead of the elements."
  },
  {
   "property": "C41",
   "status": "partial",
   "theorems": [
    "Verif.C41_vector_partial",
    "Verif.C41_counterexample",
    "Verif.C41_counterexample_push",
    "Verif.C41_counterexample_box"
   ],
   "note": "Elements, metadata and release of the buffer for all lengths and capacities; the layout is right exactly if there is no spare capacity or the elements have no bytes (C41_counterexample, with two consequences)."
  },
  {
   "property": "C42",
   "status": "partial",
   "theorems": [
    "Verif.C42_withEmplacableFor_partial",
    "Verif.C42_uses",
    "Verif.C42_counterexample",
    "Verif.C42_counterexample_twice"
   ],
   "note": "True if f returns, or unwinds without having used the emplacable. Not true if f unwinds after having used it (C42_counterexample*)."
  },
  {
   "property": "C43",
   "status": "proved",
   "theorems": [
    "Verif.C43_item_unwinds",
    "Verif.C43_array_unwinds",
    "Verif.C43_items",
    "Verif.C43_short",
    "Verif.C43_too_large",
    "Verif.C43_values"
   ],
   "note": "Items that deliver their values; too few items, too many items, layouts that do not exist, and items that unwind at any point (also followed by a panicking destructor). Remaining items are dropped."
  },
  {
   "property": "C44",
   "status": "partial",
   "theorems": [
    "Verif.C44_pop_aligned",
    "Verif.C44_remove_aligned",
    "Verif.C44_pop_unaligned_partial",
    "Verif.C44_remove_unaligned_partial",
    "Verif.C44_pop_sized",
    "Verif.C44_remove_sized_partial"
   ],
   "note": "Aligned: full. Unaligned: ZstOk for the receiver and RemoveOk for the giver. Sized: on failure of remove_into the giver loses an element (C26)."
  },
  {
   "property": "C45",
   "status": "proved",
   "theorems": [
    "Verif.C45_start",
    "Verif.C45_for_each",
    "Verif.C45_find_map",
    "Verif.C45_find",
    "Verif.C45_position",
    "Verif.C45_any",
    "Verif.C45_all",
    "Verif.C45_search_pure"
   ],
   "note": "All three kinds of vectors and closures that are arbitrary programs."
  },
  {
   "property": "C46",
   "status": "proved",
   "theorems": [
    "Verif.C46_serialize",
    "Verif.C46_debug"
   ],
   "note": "All three kinds of vectors and arbitrary formatters and serializers."
  },
  {
   "property": "C47",
   "status": "proved",
   "theorems": [
    "Verif.C47_value",
    "Verif.C47_text",
    "Verif.C47_cloned",
    "Verif.C47_array",
    "Verif.C47_fromIter",
    "Verif.C47_unsize",
    "Verif.C47_arrayToSlice",
    "Verif.C47_strToBytes"
   ],
   "note": "Values, texts, cloned slices, arrays, from_iter, unsize, arrays as slices, str as bytes. Boxes and vectors: see C40 and C41."
  },
  {
   "property": "C48",
   "status": "partial",
   "theorems": [
    "Verif.C48_backwards_unaligned",
    "Verif.C48_backwards_aligned",
    "Verif.C48_nthBack_unaligned_partial",
    "Verif.C48_nthBack_aligned_partial",
    "Verif.C48_counterexample_aligned",
    "Verif.C48_counterexample_unaligned",
    "Verif.C48_nthBack_unaligned",
    "Verif.C48_nthBack_aligned",
    "Verif.C48_nthBack_sized"
   ],
   "note": "nth_back that ends on the sole remaining element after the front has moved returns a wrong reference, as next_back does (C48_nthBack_*: for every iterator, which one); every other call sequence proved, and any sequence of back calls alone in full. Sized: full, including zero-sized elements."
  },
  {
   "property": "C49",
   "status": "proved",
   "theorems": [
    "Verif.C49_extend",
    "Verif.C49_fromIter",
    "Verif.C49_extend_returns"
   ],
   "note": "For every element size including zero, and every way the items or the allocator can fail."
  },
  {
   "property": "C50",
   "status": "partial",
   "theorems": [
    "Verif.C50_intoVec_partial",
    "Verif.C50_roundtrip_partial",
    "Verif.C50_rcNewWith_partial",
    "Verif.C50_rcNew",
    "Verif.C50_rcDrop",
    "Verif.C50_counterexample"
   ],
   "note": "If the closure panics after it has delivered its value, the buffer of the box is lost (counterexample); the round trip from a Vec needs capacity = length, as C41. Everything else proved."
  },
  {
   "property": "C51",
   "status": "partial",
   "theorems": [
    "Verif.C51_unsizeMacro",
    "Verif.C51_byValueStr",
    "Verif.C51_pushUnsize_aligned",
    "Verif.C51_pushUnsize_unaligned_partial",
    "Verif.C51_unsizeVec",
    "Verif.C51_unsizeVec_aligned",
    "Verif.C51_unsizeVec_unaligned_partial",
    "Verif.C51_insertUnsize_aligned_partial",
    "Verif.C51_insertUnsize_unaligned_partial",
    "Verif.C51_insertUnsize_out_aligned",
    "Verif.C51_insertUnsize_out_unaligned",
    "Verif.C51_counterexample"
   ],
   "note": "unsize!, by_value_str! and push_unsize on statically aligned elements in full; the rest under the guards of C01 and C03, with a counterexample. unsize_vec! is unsized_vec! of the coerced values (C51_unsizeVec)."
  },
  {
   "property": "C52",
   "status": "partial",
   "theorems": [
    "Verif.C52_explained",
    "Verif.C52_program_aligned_partial",
    "Verif.C52_program_unaligned_partial",
    "Verif.C52_program_sized_partial",
    "Verif.C52_uninit_aligned_partial",
    "Verif.C52_uninit_unaligned_partial",
    "Verif.C52_uninit_sized_partial",
    "Verif.C52_counterexample"
   ],
   "note": "All programs of covered calls (as C36), with bytes of type Option in which none is an uninitialised byte. Refuted after shrinking that lowers the alignment over padding (C52_counterexample, see C18). Programs over sized vectors include zero-sized elements, for which the calls that divide by the size (C35) are the uncovered ones."
  },
  {
   "property": "C53",
   "status": "partial",
   "theorems": [
    "Verif.C53_push_aligned",
    "Verif.C53_push_unaligned_partial",
    "Verif.C53_push_sized_partial",
    "Verif.C53_push_zst",
    "Verif.C53_insert_aligned_partial",
    "Verif.C53_insert_unaligned_partial",
    "Verif.C53_insert_sized_partial",
    "Verif.C53_insert_out_aligned",
    "Verif.C53_insert_out_unaligned",
    "Verif.C53_insert_out_sized",
    "Verif.C53_insertWith_out_aligned",
    "Verif.C53_insertWith_out_unaligned",
    "Verif.C53_insertWith_out_sized",
    "Verif.C53_pushWith_leaks_aligned",
    "Verif.C53_pushWith_leaks_unaligned_partial",
    "Verif.C53_pushWith_leaks_sized",
    "Verif.C53_insertWith_leaks_aligned",
    "Verif.C53_insertWith_leaks_unaligned_partial",
    "Verif.C53_insertWith_leaks_sized",
    "Verif.C53_counterexample"
   ],
   "note": "push and insert: proved on the paths where C01/C03 hold, out of range for every vector. insert_with out of range: proved. Refuted for push_with/insert_with that cannot grow (the value leaks), for every vector (C53_*_leaks_*) and concretely (C53_counterexample)."
  },
  {
   "property": "C54",
   "status": "proved",
   "theorems": [
    "Verif.C54_unaligned",
    "Verif.C54_aligned",
    "Verif.C54_sized",
    "Verif.C54_new_unaligned",
    "Verif.C54_new_aligned",
    "Verif.C54_new_sized"
   ],
   "note": "For every vector with the representation invariant (Stores/Holds)."
  },
  {
   "property": "C55",
   "status": "partial",
   "theorems": [
    "Verif.C55_loop_aligned",
    "Verif.C55_loop_unaligned",
    "Verif.C55_extend_aligned",
    "Verif.C55_extend_unaligned",
    "Verif.C55_fromIter_aligned",
    "Verif.C55_fromIter_unaligned",
    "Verif.C55_unsizedVec_values_aligned_partial",
    "Verif.C55_unsizedVec_values_unaligned_partial",
    "Verif.C55_unsizedVec_values_raising_partial",
    "Verif.C55_counterexample"
   ],
   "note": "Refuted for everything that goes through push_with: whenever it returns, extend has replaced the storage once for each item that is not empty, whatever was reserved, so k items of at least m bytes cost at least m*k*(k-1)/2 copied bytes (C55_loop_*, C55_extend_*, C55_fromIter_*; exact for statically aligned elements). Proved for unsized_vec! with values, which uses push, on a new vector with an allocator that grants exactly what is asked for."
  },
  {
   "property": "C56",
   "status": "partial",
   "theorems": [
    "Verif.C56_aligned",
    "Verif.C56_unaligned_partial",
    "Verif.C56_unaligned_grows",
    "Verif.C56_sized_partial",
    "Verif.C56_counterexample"
   ],
   "note": "Aligned: full (any reservation, any sequence). Unaligned: the bytes asked for have to cover the padding behind each element (C56_counterexample; whenever they do not, the storage has grown: C56_unaligned_grows, for all sequences), and the alignment is reached only as in C12. Sized: the number of elements asked for is enough (elements of at least one byte, see C35)."
  },
  {
   "property": "C57",
   "status": "partial",
   "theorems": [
    "Verif.C57_unaligned",
    "Verif.C57_aligned",
    "Verif.C57_sized",
    "Verif.C57_program_unaligned_partial",
    "Verif.C57_program_aligned_partial",
    "Verif.C57_program_sized_partial",
    "Verif.C57_counterexample_unaligned",
    "Verif.C57_counterexample"
   ],
   "note": "For every vector that holds its elements, of all three kinds, and after every program of covered calls. False of vectors made by unsizing (C57_counterexample): the first two elements are at the same place."
  },
  {
   "property": "C58",
   "status": "proved",
   "theorems": [
    "Verif.C58_unaligned",
    "Verif.C58_aligned",
    "Verif.C58_sized",
    "Verif.C58_no_repadding",
    "Verif.C58_new_no_repadding"
   ],
   "note": "For all programs without shrinking that reach their end, from any state, without any assumption about arguments, allocator or destructors."
  },
  {
   "property": "C59",
   "status": "proved",
   "theorems": [
    "Verif.C59_unaligned",
    "Verif.C59_aligned",
    "Verif.C59_sized",
    "Verif.C59_new_unaligned",
    "Verif.C59_new_aligned"
   ],
   "note": "For all programs from every state, for the three implementations, with caught panics; no invariant is assumed. What iterators show is not part of the claim (see C09, C10 for their defects)."
  },
  {
   "property": "C60",
   "status": "partial",
   "theorems": [
    "Verif.C60_slice",
    "Verif.C60_str",
    "Verif.C60_cstr_contract",
    "Verif.C60_cstr_lawful",
    "Verif.C60_popInto_aligned",
    "Verif.C60_removeInto_aligned",
    "Verif.C60_popInto_unaligned",
    "Verif.C60_removeInto_unaligned",
    "Verif.C60_popInto_sized",
    "Verif.C60_removeInto_sized",
    "Verif.C60_popInto_unsound",
    "Verif.C60_box",
    "Verif.C60_box_drop",
    "Verif.C60_cstr_box_drop",
    "Verif.C60_pushWith_large",
    "Verif.C60_cstr_large",
    "Verif.C60_counterexample"
   ],
   "note": "Proved for dynamically aligned and sized elements, for slices and str. False for CStr, whose ALIGN is that of a reference (C60_cstr_contract, C60_cstr_box_drop, C60_cstr_large, all for every vector). For every statically aligned type: the announced layout is the element's own, and the box can be dropped, exactly if the alignment is ALIGN (C60_popInto_aligned, C60_removeInto_aligned, C60_box_drop)."
  },
  {
   "property": "C61",
   "status": "partial",
   "theorems": [
    "Verif.C61_call_unaligned",
    "Verif.C61_call_aligned",
    "Verif.C61_call_sized",
    "Verif.C61_shrink_aligned",
    "Verif.C61_shrink_sized",
    "Verif.C61_tested_unaligned",
    "Verif.C61_tested_aligned",
    "Verif.C61_tested_sized",
    "Verif.C61_holds_unaligned_partial",
    "Verif.C61_holds_aligned_partial",
    "Verif.C61_holds_sized_partial",
    "Verif.C61_deployed_unaligned_partial",
    "Verif.C61_deployed_aligned_partial",
    "Verif.C61_plenty_unaligned_partial",
    "Verif.C61_plenty_aligned_partial",
    "Verif.C61_program_sized_partial",
    "Verif.C61_drop",
    "Verif.C61_overflow_sum",
    "Verif.C61_overflow_difference",
    "Verif.C61_counterexample",
    "Verif.C61_counterexample_sized",
    "Verif.C61_counterexample_push"
   ],
   "note": "Proved for every call from every state, reachable or not, that the debug build does the same or panics (C61_call_*), hence that what runs in a debug build without a panic runs identically in a release build (C61_tested_*). That legal calls fail no assertion is false: a failing reservation panics in the debug build (C61_counterexample), so does a byte reservation for sized elements that the release build grants (C61_counterexample_sized), and push of an over-aligned zero-sized value (C61_counterexample_push). Proved for covered calls: equality unless a reservation fails (C61_holds_*), equality if memory is not short (C61_plenty_*), outright equality for sized elements (C61_program_sized_partial). Missing: calls that are not covered (DESIGN.md). With the overflow checks of debug builds the assertions mean the same (C61_overflow_sum, C61_overflow_difference)."
  },
  {
   "property": "C62",
   "status": "partial",
   "theorems": [
    "Verif.C62_push_unaligned",
    "Verif.C62_insert_unaligned",
    "Verif.C62_pop_unaligned",
    "Verif.C62_remove_unaligned",
    "Verif.C62_realign",
    "Verif.C62_push_aligned",
    "Verif.C62_insert_aligned_partial",
    "Verif.C62_insert_aligned_index",
    "Verif.C62_pop_aligned",
    "Verif.C62_remove_aligned",
    "Verif.C62_push_sized",
    "Verif.C62_insert_sized_partial",
    "Verif.C62_insert_sized_index",
    "Verif.C62_pop_sized",
    "Verif.C62_remove_sized",
    "Verif.C62_counterexample"
   ],
   "note": "Proved for all functions of the three implementations except the index of insert_unchecked for statically aligned and sized elements, which is not asserted: with room available an index out of range is undefined behaviour in a debug build as well (C62_insert_aligned_index, C62_insert_sized_index, for every vector; C62_counterexample). The public insert checks the index. insert_with_unchecked is modelled behind its assertion."
  },
  {
   "property": "C63",
   "status": "partial",
   "theorems": [
    "Verif.C63_program_aligned_partial",
    "Verif.C63_program_sized_partial",
    "Verif.C63_program_unaligned_partial",
    "Verif.C63_balance",
    "Verif.C63_life_aligned_partial",
    "Verif.C63_life_unaligned_partial",
    "Verif.C63_life_sized_partial",
    "Verif.C63_move_sized_overflow",
    "Verif.C63_counterexample_sized"
   ],
   "note": "Proved for all programs of covered calls (the restrictions of C36) and moves on any number of vectors, with panics caught after each command. When memory is short, an element that pop_into has taken out is lost (it is in Books.released); for sized elements a move out of the middle loses the last element, not the one to be moved: C63_move_sized_overflow, C63_counterexample_sized; the theorem for sized elements assumes memory for those moves. Vectors have element types with the same implementation."
  },
  {
   "property": "C64",
   "status": "partial",
   "theorems": [
    "Verif.C64_aligned_unaligned_plain_partial",
    "Verif.C64_unaligned_plain_partial",
    "Verif.C64_unaligned_shrink_partial",
    "Verif.C64_aligned_unaligned_partial",
    "Verif.C64_sized_aligned_partial",
    "Verif.C64_sized_unaligned_partial",
    "Verif.C64_aligned_partial",
    "Verif.C64_sized_partial",
    "Verif.C64_unaligned_partial",
    "Verif.C64_counterexample"
   ],
   "note": "For all programs of calls that are covered (C36) in both implementations and are never short of memory; the theorems also allow the two runs to differ in build mode and pointer width. False of insert, which differs between the implementations (C64_counterexample)."
  },
  {
   "property": "C65",
   "status": "partial",
   "theorems": [
    "Verif.C65_reserve_exact_aligned",
    "Verif.C65_with_capacity_aligned",
    "Verif.C65_with_capacity_unaligned_partial",
    "Verif.C65_stress",
    "Verif.C65_stress_exceeded",
    "Verif.C65_counterexample_stress",
    "Verif.C65_counterexample",
    "Verif.C65_reserve_exact_sized",
    "Verif.C65_with_capacity_sized_partial",
    "Verif.C65_with_capacity_sized_short",
    "Verif.C65_counterexample_sized"
   ],
   "note": "Proved as stated for statically aligned elements and for stress.rs, which also is shown to fail with more than 256 turns (C65_stress_exceeded) and with an allocator that grants more than it is asked for (C65_counterexample_stress). For dynamically aligned elements the byte capacity is rounded up to a multiple of the alignment: C65_counterexample. For sized elements, if Vec takes what it is asked for, C65_reserve_exact_sized says what the capacity is: right with no elements asked for and no free slot (C65_with_capacity_sized_partial), too small for every request of at least two elements and the bytes of more (C65_with_capacity_sized_short, C65_counterexample_sized)."
  },
  {
   "property": "C66",
   "status": "partial",
   "theorems": [
    "Verif.C66_script",
    "Verif.C66_stages",
    "Verif.C66_program_aligned_partial",
    "Verif.C66_program_sized_partial",
    "Verif.C66_program_unaligned_partial",
    "Verif.C66_life_aligned_partial",
    "Verif.C66_life_unaligned_partial",
    "Verif.C66_aligned_unaligned_partial",
    "Verif.C66_sized_aligned_partial",
    "Verif.C66_sized_unaligned_partial",
    "Verif.C66_counterexample",
    "Verif.C66_program_unaligned_plain_partial",
    "Verif.C66_program_unaligned_shrink_partial"
   ],
   "note": "Proved for strategies that make covered calls (as in C36 and C64). The full statement is false of `insert`: C66_counterexample is a strategy that finds out that its vector is not a `Vec`, and then goes on differently."
  },
  {
   "property": "C67",
   "status": "partial",
   "theorems": [
    "Verif.C67_examples_unaligned_partial",
    "Verif.C67_examples_aligned_partial",
    "Verif.C67_examples_sized_partial",
    "Verif.C67_two_unaligned_partial",
    "Verif.C67_two_aligned_partial",
    "Verif.C67_two_sized_partial",
    "Verif.C67_unsizedVec_aligned",
    "Verif.C67_counterexample_unsize",
    "Verif.C67_counterexample_unsizedVec"
   ],
   "note": "Proved for the examples of the type, README, rust-book-17-02, push, push_unsize, insert, insert_unsize, remove_into, pop_into, insert_with and push_with, for all values (dynamically aligned: zero-sized values only up to the alignment of usize, and none in the examples with two vectors; sized: not zero-sized). The examples of `unsize` and `unsized_vec!` show something else (C67_unsizedVec_aligned, C67_counterexample_unsize, C67_counterexample_unsizedVec)."
  },
  {
   "property": "C68",
   "status": "partial",
   "theorems": [
    "Verif.C68_same_unaligned",
    "Verif.C68_same_aligned",
    "Verif.C68_same_sized",
    "Verif.C68_index_unaligned",
    "Verif.C68_index_aligned",
    "Verif.C68_pop_unaligned",
    "Verif.C68_pop_aligned",
    "Verif.C68_remove_unaligned",
    "Verif.C68_remove_aligned",
    "Verif.C68_push_room_unaligned",
    "Verif.C68_push_room_aligned",
    "Verif.C68_push_unaligned",
    "Verif.C68_push_raise_lower",
    "Verif.C68_push_aligned",
    "Verif.C68_insert_unaligned",
    "Verif.C68_insert_aligned",
    "Verif.C68_pushes_aligned",
    "Verif.C68_pushes_unaligned_partial",
    "Verif.C68_pushes_raising_partial",
    "Verif.C68_raises",
    "Verif.C68_pushWith_unaligned",
    "Verif.C68_pushWith_aligned",
    "Verif.C68_pushWith_lower_unaligned",
    "Verif.C68_pushWith_lower_aligned",
    "Verif.C68_pushesWith_lower_unaligned",
    "Verif.C68_pushesWith_lower_aligned",
    "Verif.C68_counterexample",
    "Verif.C68_pushesWith_aligned",
    "Verif.C68_pushesWith_unaligned",
    "Verif.C68_insertWith_unaligned",
    "Verif.C68_insertWith_aligned",
    "Verif.C68_insertWith_sized",
    "Verif.C68_insertWith_lower_unaligned",
    "Verif.C68_insertWith_lower_aligned",
    "Verif.C68_set_unaligned",
    "Verif.C68_set_aligned",
    "Verif.C68_set_sized",
    "Verif.C68_index_sized",
    "Verif.C68_pop_sized",
    "Verif.C68_remove_sized",
    "Verif.C68_push_room_sized",
    "Verif.C68_push_sized",
    "Verif.C68_insert_sized",
    "Verif.C68_pushes_sized"
   ],
   "note": "Proved of the metered model (which does the same as the model, C68_same_*), for all three implementations: indexing, pop_into, remove_into, insert, insert_with, writing through a reference, push with and without room, and sequences of pushes (dynamically aligned elements of any alignment: C68_pushes_raising_partial). False of `push_with` and `insert_with` of unsized elements: they copy the whole storage every time (C68_pushWith_lower_*, C68_insertWith_lower_*), so n calls copy at least s*n(n-1)/2 bytes (C68_pushesWith_lower_*, C68_counterexample)."
  },
  {
   "property": "C69",
   "status": "partial",
   "theorems": [
    "Verif.C69_exchange",
    "Verif.C69_dropping",
    "Verif.C69_forgetting",
    "Verif.C69_getting",
    "Verif.C69_boxing",
    "Verif.C69_pushWith_aligned",
    "Verif.C69_insertWith_aligned",
    "Verif.C69_pushWith_unaligned_partial",
    "Verif.C69_insertWith_unaligned_partial",
    "Verif.C69_pushWith_sized",
    "Verif.C69_insertWith_sized",
    "Verif.C69_value",
    "Verif.C69_text",
    "Verif.C69_cloned",
    "Verif.C69_array",
    "Verif.C69_box",
    "Verif.C69_vector_partial",
    "Verif.C69_popInto_unaligned",
    "Verif.C69_popInto_aligned_partial",
    "Verif.C69_popInto_sized",
    "Verif.C69_removeInto_unaligned_partial",
    "Verif.C69_removeInto_aligned_partial",
    "Verif.C69_removeInto_sized",
    "Verif.C69_counterexample"
   ],
   "note": "C69_exchange is the general statement. The emplacers: all keep the contract, except `insert_with` of dynamically aligned elements at the end of a vector with padding (C69_counterexample) and `push_with` of an overaligned zero-sized one (excluded by ZstOk). The emplacables: all but that of a `Vec` with spare capacity (C69_vector_partial is an equivalence), those of `CStr` vectors (hypothesis `Exact`), and `remove_into` at the end of a vector with padding (RemoveOk). That the pointer handed out is aligned is not part of `Keeps`; it is part of `Holds` of the vector afterwards (C24)."
  },
  {
   "property": "C70",
   "status": "partial",
   "theorems": [
    "Verif.C70_vec",
    "Verif.C70_unaligned",
    "Verif.C70_aligned",
    "Verif.C70_type",
    "Verif.C70_record",
    "Verif.C70_layout",
    "Verif.C70_lawful_partial",
    "Verif.C70_lawful_iff",
    "Verif.C70_exact_iff",
    "Verif.C70_recorded",
    "Verif.C70_new_partial",
    "Verif.C70_program_partial",
    "Verif.C70_ends_partial",
    "Verif.C70_life_partial",
    "Verif.C70_counterexample"
   ],
   "note": "The choice is proved to be as documented for all types (C70_vec, C70_aligned, C70_unaligned, C70_recorded), and the layouts of structs to be right (C70_record, C70_layout). False of slices of zero-sized elements, whose length is not recorded (C70_lawful_iff, C70_counterexample), and of `CStr`, whose ALIGN is not its alignment (C70_exact_iff). C70_program_partial is C36 for all types at once; C70_ends_partial and C70_life_partial have conditions that do not depend on the type (calls at the ends of the vector, elements not of size zero)."
  },
  {
   "property": "C71",
   "status": "partial",
   "theorems": [
    "Verif.C71_send_partial",
    "Verif.C71_sync_partial",
    "Verif.C71_sized",
    "Verif.C71_unsized_never",
    "Verif.C71_counterexample",
    "Verif.C71_variance",
    "Verif.C71_invariant",
    "Verif.C71_emplacable"
   ],
   "note": "Safety is proved for all types: what can be sent or shared may be (C71_send_partial, C71_sync_partial), what stands for something else may do so (C71_variance). The converse is proved for sized types (C71_sized) and false for all unsized ones (C71_unsized_never, C71_counterexample): they contain a NonNull and there is no impl of Send or Sync. The rules by which the compiler derives auto traits and variance from fields are part of the model."
  },
  {
   "property": "C72",
   "status": "proved",
   "theorems": [
    "Verif.C72_rest",
    "Verif.C72_counts_unaligned",
    "Verif.C72_counts_aligned",
    "Verif.C72_counts_sized"
   ],
   "note": "For all three implementations and all sequences of calls, including those that return a wrong reference (C09, C10). The size_hint, count and len of std's slice iterator are part of the model."
  },
  {
   "property": "C73",
   "status": "proved",
   "theorems": [
    "Verif.C73_push_arrays",
    "Verif.C73_cost",
    "Verif.C73_push_arrays_returns",
    "Verif.C73_preallocated"
   ],
   "note": "The two benchmarks of the crate's own vectors; those of Vec<Box<[i32]>> are not part of the crate. Cost counts bytes and records moved, as in C68; the time for calls of the allocator is not counted."
  },
  {
   "property": "C74",
   "status": "partial",
   "theorems": [
    "Verif.C74_tests_aligned",
    "Verif.C74_tests_sized_partial",
    "Verif.C74_dynamic_unaligned_partial",
    "Verif.C74_tests_unaligned_partial",
    "Verif.C74_sized_unaligned_partial",
    "Verif.C74_counterexample_dynamic",
    "Verif.C74_counterexample_insert",
    "Verif.C74_counterexample_sized",
    "Verif.C74_counterexample_shrink"
   ],
   "note": "Statically aligned elements: all four tests for all values. Sized elements: all four, except for zero-sized elements, where `push` panics (counterexample). Dynamically aligned elements, with an exact allocator: all four tests if the sizes are positive multiples of a bound for the alignments; test_dyn and the calls of test_sized also for other sizes, except for zero-sized values that are aligned to more than usize or are added after shrinking. Counterexamples outside: over-aligned zero-sized values, and two elements of one byte that are shrunk. test_capacity_growth is covered by C56; emplacable_from and type_inference use no vector function beyond C38."
  }
 ]
}