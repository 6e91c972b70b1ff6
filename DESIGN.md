# Formal model of `unsized-vec` / `emplacable` in Lean 4

Source: `/repo` (read as text only; never built or run). Citations are `file:lines` in `/repo`.

## Trusted base

* The Lean 4.33 kernel. Theorems use at most the three standard axioms `propext`, `Quot.sound`,
  `Classical.choice` (checked per theorem; see "Axioms" at the end).
* The reading of the Rust code recorded in the model files. Every model definition cites the lines it
  transcribes. Nothing links the Rust text to the Lean text mechanically.
* The semantics given below to the Rust primitives: `ptr::copy`, `ptr::add`, reference creation, layouts,
  the `Allocator` contract, `std::vec::Vec`, panics and unwinding.

## Shape of the model

* **Words.** `usize` is a natural number together with a pointer width `bits` (a parameter, `Cfg.bits`); all
  checks (`checked_add`, `unchecked_sub`, …) are explicit. Unchecked operations whose precondition fails give
  the outcome `ub`. `isize::MAX = 2^(bits-1) - 1`. Alignments are powers of two below `2^bits`.
* **Outcomes.** An operation on state `σ` is a total function into
  `ok a s | panic s | abort | ub`. `panic s` carries the state left behind while unwinding.
  `abort` is `handle_alloc_error`, or a panic while unwinding. `ub` is any violated safety precondition.
* **Build mode.** `Cfg.debug` switches `debug_assert!` on and off; theorems hold for both unless stated.
* **Memory.** The element storage of a vector is one block: an address, a byte map by offset, and ghost data
  of the live allocation (requested size, granted size, alignment). Out-of-bounds copies, `add` beyond the
  block, references that are misaligned or out of bounds, and allocator calls with a layout that does not
  fit the block are `ub`. A vector owns its block, so different vectors never share memory.
* **Allocator.** An oracle chosen per call: for every layout it either fails or returns an address that is
  a multiple of the alignment. `Global` returns exactly the requested size; the oracle may also grant more.
  With statically aligned elements every such allocator is covered. With dynamically aligned elements it is
  covered too, for the theorems with a parameter `G` (`Represents G`): `G = False` means that the byte capacity
  need not be a multiple of the alignment, and then `push` and `insert` need `RoomOk`; `G = True` asks for an
  allocator that grants what was requested (`Env.Exact`).
* **Types.** An unsized type is described by its metadata type and the functions `sizeOf`, `alignOf` on
  metadata. Slices: metadata = length. Trait objects: metadata = vtable carrying size and alignment.
* **Values.** A value is its metadata and its bytes. Destructors append the value to a drop log.
* **Three implementations.** `Unaligned` (`src/inner/unaligned.rs`), `Aligned` (`src/inner/aligned.rs`),
  `Sized` (`src/inner/sized.rs`), and the generic layer `src/lib.rs` over them.
* **Emplacement protocol.** An emplacable and an emplacer are modelled as the code fragments between the
  calls that connect them (before the emplacer call, the inner closure for non-null / null, after it), and
  `run` sequences them exactly as the closures do, including unwinding.
* **Specification.** The abstract state is a plain `List` of values. Each theorem relates the concrete
  operation to the list operation that the English claim names.

## Not modelled

* Lifetimes and borrow checking. Auto traits (`Send`, `Sync`) and variance are modelled for the public types only (`Model/Threads.lean`).
* The byte-level internals of `std::vec::Vec` (element-info storage and the sized implementation use its
  documented contract: capacity growth is an oracle); the `core::fmt` and `serde` side of formatting and serialization (a
  formatter or serializer is an arbitrary program).
* Pointer provenance beyond "offset within the block"; concurrency (the crate has none).
* Trait dispatch in general. The impl blocks that select one of the three implementations for a type are transcribed (`Model/Select.lean`);
  that the compiler picks the most special one is part of the reading. Extern types, which have no size, are left out.

## Plan per property

| id | modelled by | how it is proved |
|---|---|---|
| C01 | `push` of lib.rs over all three implementations | refinement of `xs ++ [x]`; progress theorem (returns when sizes fit and the allocator grants); over-aligned ZST into an unallocated dyn vector is a counterexample |
| C02 | `pop_into` + emplacement protocol | refinement of `dropLast`, for place/drop/forget emplacers; the announced alignment is **wrong** for `CStr` |
| C03 | `insert` | **false of the code**: `ptr.add(index)` instead of `ptr.add(start_offset)`. Witnesses for both implementations; partial theorem for `start_offset = index`; exact contents otherwise; every other index is wrong for some value |
| C04 | `insert_with` | proved for sized/aligned; unaligned: false for `index = len` with trailing padding (underflow), partial otherwise |
| C05 | `remove_into` | proved for sized/aligned (alignment announced: see C60); unaligned: false for the last element after padding, partial otherwise |
| C06, C07 | `get`, `get_mut`, `Index` | proved from the representation invariant |
| C08 | `next`, `size_hint`, `count` | induction over remaining elements |
| C09 | `nth`, `last` | **false** after advancing with `n = 0`; partial for `n ≥ 1` or unadvanced iterators; which reference is returned otherwise |
| C10, C11 | `next_back`, mixtures | **false** for the last element after the front advanced; partial otherwise; for all call sequences, which calls are at fault and what they return |
| C12–C14 | reserve family | proved for aligned; unaligned except `align()` on zero capacity; sized false (unit mix-up); debug-build panic of `try_reserve` |
| C15 | allocator-free adding | `push`/`insert` proved with an always-failing allocator; `push_with`/`insert_with` **false** |
| C16 | growth | doubling theorem and induction for total copied bytes; for elements of any alignment, the pushes that raise it are counted apart (`Spec/Raises.lean`), at most as many as the alignment can be doubled |
| C17 | exact reserve | **false**, partial for zero-byte requests |
| C18, C19 | shrink family | aligned proved; unaligned **false** when alignment is lowered over padding; partial; sized `shrink_to` no-op |
| C20 | invariant (`UVec.Represents`; `Holds` requires a byte capacity that is a multiple of the alignment, `Stores` does not) | **false** for a `push` after a shrink to a non-multiple of the alignment, if the element fits but its padding does not (`RoomOk`); partial for sequences without such a push |
| C21 | Drop | induction over elements, with panicking destructors |
| C22 | `from_sized`, `unsize` with the allocation of its records (Model/Unsize) | **false** (end offsets are one element short); exact characterisation, also of the destruction of the result |
| C23 | `realign_up`, `len_after_realign_up` | loop invariants for both passes |
| C24 | alignment of references | part of `ub`-freedom; **false** for over-aligned ZST into an unallocated vector |
| C25–C27 | unwinding | explicit unwinding paths; double drop witness for `remove_into` |
| C28 | metadata codec | round trip; **false** for slices of zero-sized elements; for every statically aligned type (`ATy.Fits`) exactly what is stored (`ATy.stored`) |
| C29, C30 | `ValidSize`, `ValidAlign` | bit-level equality with the arithmetic specification for every width |
| C31 | allocator contract | non-interference: changing the allocator's answers to empty or invalid requests changes no run, from any state; layout fits the block: part of `ub`-freedom |
| C32 | `extend`, `from_iter`, `unsized_vec!` over the three implementations, items being arbitrary programs (Model/Collect); a value that `push` does not accept is destroyed by it | induction over items, with items and iterators that unwind or abort; **false** for sized zero-sized elements and for over-aligned zero-sized trait objects |
| C33 | `eq`, `partial_cmp`, `cmp`, `hash` over borrowed vectors of each kind, methods of elements being arbitrary programs (Model/Traits) | loops proved equal to the loops on lists; then list equality, lexicographic order, order laws, equal hashes |
| C34 | `clone` of the sized implementation, with clones that panic | invariant of the loop; **false** for zero-sized types (division by zero) |
| C35 | sized implementation with size 0 | `push_with`, `insert_with`, removal, access proved; `push`, `insert`, `reserve…`, `shrink…` **false** (division by zero) |
| C36, C37 | call sequences (Model/Client), including the destruction of arguments that are not accepted, iterators used from both ends and `iter_mut` with all references kept and then written through | induction over operation lists with the invariant, ownership ledger. **False** for programs that use calls with counterexamples (`C36_counterexample_iter`). Sized vectors may have elements of size 0; the calls that divide by it (C35) are then not covered. For dynamically aligned elements the covered calls depend on the vector's alignment; `Props/Plain.lean` has versions whose conditions refer to the list only, using that the alignment of a vector stays between its first value and the largest one asked for (C58) |
| C38–C43 | emplacable crate | protocol model; **false**: `Vec` layout uses capacity, `Copy` slices read the wrong address, `with_emplacable_for` double drop |
| C44 | two vectors | protocol run with a vector on either side |
| C45 | `for_each`, `all`, `any`, `find`, `find_map`, `position` on an iterator at any position | the loop agrees with the loop on the list of remaining elements, and leaves the right rest |
| C46 | `Debug::fmt`, `Serialize::serialize` | the same loop lemma |
| C47 | combinators of the emplacable crate over arbitrary items | invariant of the loop over the items; every way of unwinding |
| C48 | `nth_back` (the default method over `next_back`) mixed with the other iterator calls | induction on the count, added to the call-sequence refinement of C10; **false** on the sole remaining element after the front has moved |
| C49 | `Extend`/`FromIterator` of `Vec` over emplacables, `get`, `Vec::push` | induction over the items with the reserved room as a decreasing bound |
| C50 | `into_vec`, conversions to `String` etc., `rc_new(_with)`, `arc_new(_with)`, `Rc::from_box`, drop of the `Rc` | from C38; layout of the counters and the value as least multiples; **false** when the closure panics late |
| C51 | `unsize!`, `by_value_str!`, `push_unsize`, `insert_unsize`, `unsize_vec!` | the macros are the identity on bytes; then C01, C03, C32, C53 (a coerced value that is not accepted is destroyed once) |
| C52 | programs as for C36; bytes are `Option B`, fresh memory is `none` | every call of the list specification preserves any predicate on values; then C36. **False** after C18's shrinking |
| C53 | arguments of `push`, `insert` (`Machine.giving`) and the emplacable of `insert_with` are dropped on unwinding | from C01, C03, C04 and the ledger of destroyed values. **False** of `push_with`/`insert_with` when the vector cannot grow: the value leaks (`C53_pushWith_leaks_*`, `C53_insertWith_leaks_*`, `C53_counterexample`) |
| C54 | `len`, `is_empty`, `byte_len`, `capacity`, `byte_capacity`, `align`, `new` | proved from the representation invariant |
| C55 | the loop of `extend`, `from_iter`, `unsized_vec!`, with a count of the bytes that are copied when the storage is replaced (`countItems`) | **false**: `push_with` replaces the storage every time (C15), so the amount is quadratic; by induction over the items, exactly for static alignment. Proved for values, which are pushed with `push` (from C16) |
| C56 | `pushEach` (one `push` after the other, each with its own environment) behind any method of the reserve family | induction over the sequence with C15 (`push_idle`), and C12 for the reservation. **False** of dynamic alignment if the padding is not counted: by induction, whenever it does not fit the storage has grown |
| C57 | the references that `get` returns (`EndToEnd`) | from the representation invariant, hence after every covered program (C36); **false** of vectors made by unsizing (`C57_counterexample`) |
| C58 | programs without shrinking (`runOps`), from any state | `NoLoss` is shown for every step of every function with the rules of `Verif/Proofs/Frame.lean`, which say when a relation between the states before and after is kept by a computation; no invariant is needed |
| C59 | programs (`runOps`), from any state | `Recording` (`Verif/Spec/Shape.lean`) is the list of entries and what each call does to it; each function is shown to do that from every state (`Verif/Proofs/ShapeInst.lean`), panics included; no invariant is needed. For statically aligned elements an entry is the remainder of the metadata with the size, and for lawful types this determines the metadata (`C59_new_aligned`) |
| C60 | `Aligned` (marker.rs), `pop_into`, `remove_into`, `box_new_with`, dropping the box | `ATy.Exact` is the contract of the trait; **false** for `CStr`. The theorems on statically aligned elements need only `ATy.Lawful` or `ATy.Fits` (`ALIGN` is a multiple of the alignment, which is the same for all values), so they cover `CStr` (`C60_cstr_lawful`); those that mention the announced layout say `ALIGN`, or assume `ATy.Exact` |
| C61 | all of the model, with `Cfg.debug` on and off | every function is compared with itself (`Verif/Proofs/Builds*.lean`): it does the same, or the debug build panics, from every state. For covered calls the assertions are shown to hold from the representation invariant (`Verif/Proofs/BuildsHolds.lean`), except where a reservation fails. **False** there, and for the calls of C01 and C14 that are not covered. Overflow checks, which debug builds also turn on, concern only the sums and differences inside assertions, and make no difference there |
| C62 | the unchecked functions of the three implementations, called directly, also where the public functions never call them | the assertions come before anything is touched; room is stated in terms of the contents. **False** of the index of `insert_unchecked` for statically aligned and sized elements, which is not asserted |
| C63 | commands (`Model/Several.lean`): a call on the k-th vector, or a move `pop_into`/`remove_into` → `push_with`/`insert_with` between two different vectors; the vectors are a function from numbers | refinement to as many lists (`Cmd.onLists`), by induction over the program; the emplacable that reads from a vector behaves like one that owns the value (C44); ownership: a permutation of what came in against what is there, was dropped or went out. **False** when memory is short: `pop_into` loses the element; for sized elements `remove_into` loses the last one |
| C64 | the same calls (`SameCalls`) run on two vectors of the same or of different implementations; a sized type as a statically aligned one is `ATy.sized` | both refine the same list (C36). **False** of `insert` (see C03), which only the sized implementation does right |
| C65 | `Model/Stress.lean`: the body of the outer loop of src/bin/stress.rs, with the contents of the arrays and the number of turns as parameters; `black_box` is the identity | the exact reservation asks for the sum and an exact allocator grants it; then C15 for each push, by induction over the turns. **False** for dynamically aligned elements, where the capacity is rounded up, and for sized elements, where free slots are taken for bytes |
| C66 | `Model/Interact.lean`: a strategy is a function from the observations so far to the next call and its environment; `interact` lets it make up to `n` calls, catching panics after each. `Spec/Interact.lean`: the same strategy on a list | by induction over the number of calls, each step as in C36; every run is also the run of the list of calls that were made (`C66_script`), so the other theorems on programs apply. **False** of `insert`, as C36 and C64 |
| C67 | `Model/Docs.lean`: the documentation examples call by call, with variables in place of literals; `Spec/Docs.lean`: what the text says they show and leave behind | instances of C36 and C63: all calls are covered because they add at the end or the front and remove at the front. **False** of the examples of `unsize` and `unsized_vec!` (C22) |
| C68 | `Model/Meter.lean`: the functions of the three implementations with a meter that counts copied bytes (the old block when the allocator grows it) and records visited in loops, written or moved; straight-line code, destructors and shrinking are not counted; `Spec/Cost.lean`: costs at most, costs at least | erasure: a relation between metered and unmetered code that is preserved by all constructs gives that programs do the same; a cost logic (`Exec.Meters`, `Proofs/CostRules.lean`) gives bounds per function; sequences of pushes by a potential (capacity of block and records), to which the cost of each raise of the alignment is added; there are at most as many as the alignment can be doubled (`C68_raises`). **False** of `push_with`, which always reserves the full size in addition to the capacity: every call copies the storage, filling a vector is quadratic (`C68_pushesWith_aligned`, `C68_pushesWith_unaligned`: though nothing is refused); the same for `insert_with`. For sized elements (`Props/CostSized.lean`) both cost as much as `push` and `insert` |
| C69 | the protocol (`Model/Protocol.lean`), `Model/Sinks.lean`, `Model/Sources.lean`, the emplacers and emplacables of the vectors; `Spec/Protocol.lean`: the contract of an emplacer, as in the safety section of `Emplacer::from_fn` (1295–1311), and of an emplacable | case analysis of the exchange for arbitrary sides; each emplacer by what it is proved to prepare (C04, C38). The alignment of the pointer handed out is not visible in the protocol; it is proved with the vector afterwards (C24). **False** of `insert_with` at the end of a vector with padding (C04), and of the emplacable of a `Vec` with spare capacity (C41) |
| C70 | `Model/Select.lean`: the impl blocks of `Aligned`, `MetadataFromSize`, `SplitMetadata`, `AlignedVecImpl`, `UnsizedVecImpl` as functions on a type of Rust types; `Spec/Select.lean`: correct layouts of structs, calls at the ends of a vector | by cases on the type, and induction over nested structs for the layout; then C36 and C37 of the selected implementation. **False** of slices of zero-sized elements (C28) and of `CStr` (C60) |
| C71 | `Model/Threads.lean`: the fields of the vectors, iterators and `Emplacable`, and the rules of the compiler for auto traits and subtyping as functions on them; `Spec/Threads.lean`: what a handle allows its holder to do with the elements | by cases on the implementation that a type selects (C70). **False** of all unsized types: the vectors and iterators contain a `NonNull`, and are neither `Send` nor `Sync` |
| C72 | `Model/Hints.lean`: `size_hint`, `count`, `len` of the iterators; `Spec/Counter.lean`: a counter of the items left | the queue of C10 is a counter if one looks only at whether something is returned; the exact outputs of all calls are known (`C10_allCalls_*`) |
| C73 | `Model/Bench.lean`: the bodies of `test_push_arrays` and `test_push_arrays_preallocated` in benches/bench.rs, the loop for any machine; `black_box` is the identity, and drops the vector given to it | induction on the turns with C51 and C21; the cost from C68, since a program of pushes that all return is the loop |
| C74 | `Model/Tests.lean`: the tests of tests/test.rs that use a vector, call by call, with variables in place of literals; `Spec/Tests.lean`: what they assert and leave behind | instances of C36; before `shrink_to_fit` in `test_dyn` there is at most one element, whichever calls fail, so shrinking is covered. for the other tests of dynamically aligned elements, `Spec/PlainShrink.lean` gives conditions on the list under which shrinking is covered (also used for C36, C37, C64 and C66). **False** for zero-sized elements of a sized type (C35), over-aligned zero-sized values (disagreement 5), and after shrinking two elements of one byte (C18) |

The tests of the repository (`tests/test.rs`) are translated into programs and run on the model in `Verif/Props/RepoTests.lean`; the
model makes the observations that the tests assert. (This checks the model, it proves nothing.)

What the model of memory forbids (out-of-bounds and stale accesses, misaligned references, layouts that do not fit) is stated and
proved in `Verif/Props/Contract.lean` and, for the vectors of the standard library, in `Verif/Props/ContractVec.lean`, so that "no undefined behaviour" can be read without reading `Verif/Model/Heap.lean`.

## Disagreements

Where the code does not do what the property says. Each line gives the place in `/repo`, what happens, and the theorems in
`Verif/Props` that prove it by a concrete run of the model (or for all vectors, where marked ∀). The positive theorems on the
same property exclude exactly these situations by a hypothesis that is explained where it is defined (`Verif/Spec/Guards.lean`).

1. `src/inner/aligned.rs:254`, `src/inner/unaligned.rs:609`: `insert` shifts and writes at `ptr.add(index)`, not at
   `ptr.add(start_offset)`. Inserting overwrites other elements unless the offset happens to equal the index.
   `C03_counterexample_aligned`, `C03_counterexample_unaligned`; exact contents `C03_insert_aligned_exact` (∀),
   `C03_insert_unaligned_exact` (∀); wrong at every other index `C03_insert_aligned_wrong` (∀), `C03_insert_unaligned_wrong` (∀).
2. `aligned.rs:660–668`, and the same in `unaligned.rs` (`from_sized`): element `i` gets end offset `i * size` instead of `(i + 1) * size`,
   so the first element is empty or overlaps the second, and the last one is lost. `C22_counterexample_aligned`,
   `C22_counterexample_unaligned`, `C22_counterexample_drop` (the last element is never dropped);
   for all contents `C22_unsize_unaligned_shifted` (∀), `C22_unsize_aligned_shifted` (∀). What dropping the result does:
   `C22_drop_unaligned` (∀, first element destroyed twice, last never; `C22_drop_unaligned_iff`), `C22_drop_aligned` (∀).
   The slice vector is a valid vector of the wrong list (`C22_unsize_aligned_holds`). `unsize` can also panic or abort while
   it allocates its records (`C22_run_*_partial`, `C22_counterexample_panic`, `C22_counterexample_abort`).
3. `aligned.rs:732–759`, `unaligned.rs:1127–1158`: `nth(0)` takes 0 as the start of the element even if the iterator has advanced; `last` calls
   `nth(0)` when one element is left. `C09_counterexample_aligned`, `C09_counterexample_unaligned`, `C09_counterexample_last`;
   `C09_nth_aligned` (∀), `C09_nth_unaligned` (∀), `C09_last_aligned` (∀), `C09_last_unaligned` (∀).
4. `aligned.rs:769–795`, `unaligned.rs:1171–…`: `next_back` on the only remaining element takes 0 as its start.
   `C10_C11_counterexample_aligned`, `C10_C11_counterexample_unaligned`; so does `nth_back`: `C48_counterexample_aligned`,
   `C48_counterexample_unaligned`. For all call sequences: `C10_allCalls_aligned` (∀), `C10_allCalls_unaligned` (∀), `C10_wrong_…` (∀),
   `C11_overlap_…` (∀), `C48_nthBack_…` (∀).
5. `unaligned.rs:471–473`: when a vector without memory is asked for alignment only, `ptr` changes but `self.align` does not. So a later
   zero-sized element with a strict alignment is misaligned. `C12_counterexample`, `C12_counterexample_with_capacity`,
   `C01_counterexample`, `C32_counterexample_unaligned`; `C12_try_unaligned_alignOnly` (∀), `C01_push_zst_unaligned_debug` (∀),
   `C01_push_zst_unaligned_release` (∀), `C04_pushWith_zst_unaligned` (∀), `C24_push_zst_unaligned_misaligned` (∀),
   `C24_pushWith_zst_unaligned_misaligned` (∀).
6. `unaligned.rs:607`, `697` (`insert_with`), `833` (`remove_into`): the number of bytes to shift is `unaligned_byte_len - start_offset`; with padding behind
   the last element and `index = len` (or removing the last element) this underflows. `C03_C04_counterexample_end`, `C05_counterexample`;
   `C03_insert_unaligned_end` (∀), `C04_insertWith_unaligned_end` (∀), `C05_removeInto_unaligned_end` (∀).
7. `unaligned.rs:249–297`: `realign_down` computes the old start as `new_start - shift_back` (it should be `+`), never writes the new
   end offsets, and computes the shift wrongly: it leaves out the padding of the first element and rounds the *new* end offsets up to the old
   alignment. (The first two changes alone do not help: `repaired_sign_not_enough`.) `C18_counterexample`, `C18_counterexample_ub`; every vector of two elements `C18_shrink_unaligned_two` (∀);
   vectors of any length `C18_shrink_unaligned_first` (∀), and the guard of the partial theorem is needed for vectors of every shape:
   `C18_shrink_unaligned_wrong` (∀).
8. `unaligned.rs:500–512`: after a shrink the byte capacity need not be a multiple of the alignment, and can be less than `byte_len()`.
   The next `push` is undefined behaviour. `C20_counterexample`, `C20_push_unaligned_overfull` (∀), `C20_shrink_unaligned_overfull` (∀).
9. `src/inner/sized.rs:74–77`, `89`: division by `size_of::<T>()`, a panic for zero-sized types. `C35_push_counterexample` (∀),
   `C35_reserve_counterexample` (∀), `C35_shrink_counterexample` (∀), `C32_counterexample_sized`, `C34_counterexample`,
   `C34_counterexample_all` (∀).
10. `sized.rs:72–78`: adds a number of elements to a number of bytes; a byte reservation reserves too little (and in debug builds the assertion of
    17 fails). `shrink_to(n)` asks for as many bytes as there are, so it never shrinks. `C12_counterexample_sized`,
    `C14_counterexample_sized`, `C19_shrink_to_sized_counterexample` (∀), `C12_exact_sized_ignored` (∀), `C12_exact_sized_oneMore` (∀),
    `C14_debug_sized_panics` (∀).
11. `src/helper.rs:20–30` (`MetadataFromSize` for slices): the length is recomputed as size / element size, with 0 for zero-sized elements, so
    `[(); 5]` comes back as `[(); 0]`. `C28_counterexample`; exactly what is stored: `C28_slice_stored` (∀), `C28_push_aligned` (∀).
12. `remove_into` of all three implementations, when the emplacer declines the value (null pointer) and its destructor panics: the
    element is still in the vector, and dropped again. `C27_counterexample_aligned`, `C27_counterexample_unaligned`,
    `C27_counterexample_sized`; `C27_removeInto_aligned_twice` (∀), `C27_removeInto_unaligned_twice` (∀),
    `C27_removeInto_sized_twice` (∀).
13. `push_with`, `insert_with` (`aligned.rs:496–…`, `unaligned.rs:875–…`): they reserve the full size of the value in addition to the spare
    capacity, and `reserve_exact_capacity_bytes` adds to the capacity rather than to the length. `C15_counterexample`,
    `C16_counterexample`, `C17_counterexample`, `C17_counterexample_aligned`; `C15_pushWith_…_grows` (∀), `C15_insertWith_…_grows` (∀), `C55_…` (∀),
    `C17_exact_…_grows` (∀), `C17_exact_…_err` (∀). The storage is grown by every single `push_with`, and if the allocator has to move it,
    filling a vector takes quadratic time: `C68_pushWith_lower_…` (∀), `C68_pushesWith_lower_…` (∀), `C68_insertWith_lower_…` (∀), `C68_counterexample`.
14. `emplacable/src/lib.rs:771–780`: `CopyToBuf` for `Copy` elements copies from the address of the reference, not of the slice.
    `C40_counterexample_copied`, `C40_counterexample_copied_ub`; exactly what is copied: `C40_copied_partial` (∀).
15. `emplacable/src/lib.rs:1082`: the emplacable made of a `Vec` announces a layout computed from the capacity.
    `C41_counterexample`, `C41_counterexample_push`, `C41_counterexample_box`; right exactly if …: `C41_vector_partial` (∀).
16. `emplacable/src/lib.rs:363–390`: `with_emplacable_for` drops the value again if `f` unwinds after it was moved out.
    `C42_counterexample`, `C42_counterexample_twice`; `C42_withEmplacableFor_partial` (∀) says what happens on each path.
17. `src/lib.rs:585`: the `debug_assert!` runs before the result is returned, so a failing `try_reserve…` panics in debug builds.
    `C14_counterexample`; `C14_debug_noErr_…` (∀), `C14_debug_panics_…` (∀).
18. `sized.rs`: a failing `try_reserve_capacity_bytes` may leave the capacity raised. `C13_counterexample_sized`,
    `C13_try_sized_raised` (∀), `C13_try_sized_always` (∀).
19. `emplacable/src/lib.rs` (`Box`, `Vec` into emplacables, `box_new_with`): the buffer leaks if the destructor of the contents panics or the
    emplacer unwinds; the box leaks if the emplacable unwinds after the emplacer has returned. `C39_counterexample_box`,
    `C39_counterexample_vector`, `C39_counterexample_unwinding`, `C38_counterexample`, `C50_counterexample`; `C39_box_partial` (∀) and
    `C39_vector_partial` (∀) say what is freed and what is dropped on each path.
20. `sized.rs:177–225`: `remove_into` sets the length before it calls the emplacer; if this unwinds, the last element is
    lost. `C26_counterexample_sized`, `C26_removeInto_sized_actual` (∀).
21. `emplacable/src/lib.rs:709–735` (`T` into emplacable): the value is in a `ManuallyDrop` when the emplacer is called, so it leaks if
    `push_with` or `insert_with` cannot grow. `C53_counterexample`, `C53_pushWith_leaks_*`, `C53_insertWith_leaks_*` (∀).
22. `src/lib.rs:187–198` (documentation) and `unaligned.rs`: "the total size of all the elements doesn't exceed the byte capacity" does not
    suffice for trait objects, since the padding behind each element counts as well. `C56_counterexample`, `C56_unaligned_grows` (∀).
23. `src/marker.rs:41–43`: `ALIGN` of `CStr` is `align_of_val(&c"")`, the alignment of a reference. `pop_into` and `remove_into` announce
    `CStr`s with that alignment, and a box made from such an emplacable is freed with another alignment than it was allocated with.
    `C60_cstr_contract` (∀), `C60_popInto_unsound` (∀), `C60_cstr_box_drop` (∀), `C60_cstr_large` (∀), `C02_counterexample`,
    `C05_counterexample_cstr`, `C60_counterexample`.
    (On 15 and 23: the documentation of `Emplacer::into_fn`, emplacable/src/lib.rs:1325–1330, says that a value "must correspond to the
    `Layout`", but then speaks of oversized and overaligned layouts as if they were allowed. On the second reading the fault is not in the
    announcement but in `box_new_with` (emplacable/src/lib.rs:1390–1465), which allocates with the announced layout and leaves the box to be
    freed with that of the value. The theorems state what happens and do not depend on whom to blame.)
24. `aligned.rs:242–244`, `sized.rs:95–96`: `insert_unchecked` asserts the room, but not `index <= self.len()` as `unaligned.rs:590` does.
    `C62_insert_aligned_index` (∀), `C62_insert_sized_index` (∀), `C62_counterexample`. The public `insert` checks the index.
25. `aligned.rs:41–46, 688–692`, `unaligned.rs:48–57, 1078–1083`: the pointer is a `NonNull<()>`, and nothing implements `Send` or `Sync`, so
    vectors of unsized elements and their iterators cannot be sent to other threads or shared. `C71_unsized_never` (∀), `C71_counterexample`.

For disagreements 1–4 and 6, `Verif/Props/Repairs.lean` confirms that the place named is the whole cause: the functions with only
that expression replaced (`Verif/Model/Repairs.lean`, which is *not* code of `/repo`) satisfy C03, C10 (with C09 and C48) and C22
without the guards (`repaired_insert_…`, `repaired_calls_…`, `repaired_unsize_…`). `Verif/Props/RepairsProgram.lean` does the same for whole
programs (C36): for statically aligned elements the only exclusion left is a destructor that panics while the result of `remove_into` is
dropped; for dynamically aligned ones there are also zero-sized elements in a vector without memory and shrinking (disagreements 5, 7 and 8).
For disagreement 5, `Verif/Props/RepairsReserve.lean` changes the reservation so that it raises the alignment also if no memory is needed
(`unaligned.rs:471–473`); then C12, C01 and C03 hold without the condition `ZstOk` (`repaired_reserve_unaligned`,
`repaired_try_reserve_unaligned`, `repaired_push_unaligned`, `repaired_insert_unaligned_any`). For disagreements 7 and 8,
`Verif/Props/RepairsShrink.lean` replaces the loop of `realign_down` and rounds the new byte capacity up to the alignment
(`Verif/Model/RepairsShrink.lean`); then C18, C19 and C20 hold of every shrink without `ShrinkOk` and `CapOk` (`repaired_shrink_unaligned`,
`repaired_shrink_to_fit_unaligned`). With all changes together (`Verif/Model/RepairsAll.lean`) every program of safe code on the dynamically
aligned vector is explained by a list, under conditions that do not mention the state of the vector (`repaired_all_program_unaligned`): the
allocator grants what was asked for, requested alignments are alignments, and no destructor panics while the result of `remove_into` is dropped.
The manifest does not count these theorems.

Observations that contradict no property: `Hash` does not hash the length (`C33_hash_concatenation`); the documentation of
`with_capacity_bytes` (src/lib.rs:284–290) names two default alignments, 1 and that of `usize`, and the code uses the second
(`C12_with_capacity_unaligned_partial`).

## Axioms

`#print axioms` on every theorem of `Verif/Props` gives a subset of `propext`, `Quot.sound`, `Classical.choice`. There is no
`axiom`, `sorry`, `admit`, `native_decide` or `bv_decide` in `lean/`. `decide +kernel` (used in examples and counterexamples) evaluates in the
kernel and adds no axiom.
