{"id": "C01", "title": "push appends exactly one element", "statement": "If `push(v)` returns, the vector contains its previous elements, in the same order and with the same bytes and pointer metadata, followed by `v`; nothing is dropped and no undefined behaviour occurs. If it does not return (capacity overflow panic or allocation-failure abort) the vector's contents are unchanged.", "quantifier": "for every vector state reachable by well-behaved calls, every element value (any size, alignment, metadata), every allocator outcome, debug and release builds", "why_tests_cant": "The state space is all sequences of sizes and alignments together with all allocator outcomes; the interesting cases (re-alignment of existing elements, doubling attempt fails but exact attempt succeeds, capacity overflow at isize::MAX) are not reachable by ordinary tests.", "anchors": ["src/lib.rs::UnsizedVec::push", "src/inner/aligned.rs::push_unchecked", "src/inner/unaligned.rs::push_unchecked", "src/inner/unaligned.rs::realign_up"]}
{"id": "C02", "title": "pop_into returns the last element and leaves the rest", "statement": "`pop_into()` is `None` exactly when the vector is empty. Otherwise running the returned emplacable delivers to the emplacer the bytes, size, alignment and metadata of the last element, and afterwards the vector holds the remaining elements unchanged.", "quantifier": "for every vector contents and every emplacer behaviour (places, drops, or forgets the value)", "why_tests_cant": "Quantifies over all contents and over all emplacers, which are arbitrary user code.", "anchors": ["src/lib.rs::UnsizedVec::pop_into", "src/inner/aligned.rs::pop_into_unchecked", "src/inner/unaligned.rs::pop_into_unchecked"]}
{"id": "C03", "title": "insert puts the value at the index", "statement": "For `index <= len`, after `insert(index, v)` the vector holds the old elements `0..index`, then `v`, then the old elements `index..`, all with unchanged bytes and metadata, and no undefined behaviour occurs. For `index > len` it panics and changes nothing.", "quantifier": "for every contents, every index, every value, every allocator outcome", "why_tests_cant": "The repository's tests insert only at index 0; correctness depends on byte offsets of all preceding elements, so no finite set of examples covers it.", "anchors": ["src/lib.rs::UnsizedVec::insert", "src/inner/aligned.rs::insert_unchecked", "src/inner/unaligned.rs::insert_unchecked"]}
{"id": "C04", "title": "insert_with puts the emplaced value at the index", "statement": "For `index <= len`, after `insert_with(index, e)` returns normally the vector holds the old elements `0..index`, the value produced by `e`, and then the old elements `index..`. For `index > len` it panics and changes nothing. No undefined behaviour occurs.", "quantifier": "for every contents, every index, every emplacable, every allocator outcome", "why_tests_cant": "Quantifies over all layouts of preceding and following elements, including those where the vector has padding after its last element.", "anchors": ["src/lib.rs::UnsizedVec::insert_with", "src/inner/aligned.rs::insert_with_unchecked", "src/inner/unaligned.rs::insert_with_unchecked", "src/inner/sized.rs::insert_with_unchecked"]}
{"id": "C05", "title": "remove_into removes exactly the element at the index", "statement": "For `index < len`, running `remove_into(index)` delivers the element at `index` to the emplacer and leaves the others, in order and unchanged. For `index >= len` it panics and changes nothing. No undefined behaviour occurs.", "quantifier": "for every contents, every index, every emplacer behaviour that does not unwind", "why_tests_cant": "Offset arithmetic depends on the sizes and the padding of all elements; unit tests only remove from a handful of fixed layouts.", "anchors": ["src/lib.rs::UnsizedVec::remove_into", "src/inner/aligned.rs::remove_into_unchecked", "src/inner/unaligned.rs::remove_into_unchecked", "src/inner/sized.rs::remove_into_unchecked"]}
{"id": "C06", "title": "indexed access returns the element stored there", "statement": "`get(i)` is `Some` exactly when `i < len`, and then refers to exactly the bytes and metadata of the i-th element; `v[i]` agrees with it and panics when `i >= len`. The reference is in bounds and correctly aligned for the element.", "quantifier": "for every reachable contents and every index", "why_tests_cant": "All layouts and indices; alignment and bounds violations are undefined behaviour that a passing test does not reveal.", "anchors": ["src/lib.rs::UnsizedVec::get", "src/lib.rs::Index", "src/inner/aligned.rs::get_unchecked_raw", "src/inner/unaligned.rs::get_unchecked_raw"]}
{"id": "C07", "title": "writing through get_mut changes only that element", "statement": "Overwriting element `i` in place through `get_mut(i)` or `v[i]` (same metadata, new bytes) changes exactly that element of the contents; references to two different indices never overlap.", "quantifier": "for every contents, every pair of indices, all new bytes", "why_tests_cant": "Non-overlap is a statement about all pairs of elements of all layouts.", "anchors": ["src/lib.rs::UnsizedVec::get_mut", "src/lib.rs::IndexMut"]}
{"id": "C08", "title": "forward iteration yields the elements in order", "statement": "Calling `next` repeatedly on `iter()` or `iter_mut()` yields references to elements 0, 1, …, len-1 in order and then `None` for ever; `len`/`size_hint`/`count` always report exactly the number left.", "quantifier": "for every contents and every number of calls", "why_tests_cant": "Induction over the number of elements; unit tests see a few fixed lengths and layouts.", "anchors": ["src/lib.rs::UnsizedIter", "src/inner/aligned.rs::AlignedIter::next", "src/inner/unaligned.rs::UnalignedIter::next"]}
{"id": "C09", "title": "nth and last select the right element", "statement": "On an iterator from which any number of elements has been taken from the front, `nth(n)` yields the element `n` places further on (or `None`), and `last()` yields the final element if any is left.", "quantifier": "for every contents, every iterator position, every n", "why_tests_cant": "The failing positions (an already advanced iterator with n = 0) need a combination of calls not made by the tests.", "anchors": ["src/lib.rs::UnsizedIter", "src/inner/aligned.rs::AlignedIter::nth", "src/inner/aligned.rs::AlignedIter::last", "src/inner/unaligned.rs::UnalignedIter::nth", "src/inner/unaligned.rs::UnalignedIter::last"]}
{"id": "C10", "title": "iteration from both ends visits every element once", "statement": "Any interleaving of `next` and `next_back` yields each element exactly once: the `next` results are a prefix in order, the `next_back` results are the rest in reverse order. In particular `iter().rev()` is the reverse of the contents.", "quantifier": "for every contents and every finite interleaving of next and next_back calls", "why_tests_cant": "There are exponentially many interleavings; the wrong one needs the last element to be taken from the back after the front advanced.", "anchors": ["src/inner/aligned.rs::AlignedIter::next_back", "src/inner/unaligned.rs::UnalignedIter::next_back"]}
{"id": "C11", "title": "references handed out by iter_mut are disjoint", "statement": "The mutable references yielded by one `iter_mut()` never overlap in memory.", "quantifier": "for every contents and every interleaving of next and next_back calls", "why_tests_cant": "Aliasing of two mutable references is undefined behaviour and invisible to a test that only reads values.", "anchors": ["src/inner/aligned.rs::AlignedIterMut", "src/inner/unaligned.rs::UnalignedIterMut"]}
{"id": "C12", "title": "a successful reservation guarantees the capacity", "statement": "If `try_reserve_capacity_bytes_align(n, b, a)` (or the non-`try` / exact variants) succeeds, then `capacity() >= len() + n`, `byte_capacity() >= byte_len() + b`, `align() >= a` when alignment is dynamic, and contents, `len` and element bytes are unchanged.", "quantifier": "for every state, every n, b and power-of-two a, every allocator outcome", "why_tests_cant": "Quantifies over all requests including those near usize::MAX and over element sizes, capacities and unit mix-ups that do not show for the sizes used in tests.", "anchors": ["src/lib.rs::UnsizedVec::try_reserve_capacity_bytes_align", "src/inner/aligned.rs::try_reserve_additional_bytes_align", "src/inner/unaligned.rs::try_reserve_additional_bytes_align", "src/inner/sized.rs::try_reserve_additional_bytes_align"]}
{"id": "C13", "title": "a failed reservation changes nothing observable", "statement": "If any `try_reserve*` method returns an error, the contents, `len`, `byte_len`, `byte_capacity` and `align` are exactly as before, and the vector remains usable.", "quantifier": "for every state, every request, every way the allocator can fail", "why_tests_cant": "Needs allocator failures at each allocation point, which tests cannot inject with the global allocator.", "anchors": ["src/lib.rs::UnsizedVec::try_reserve_capacity_bytes_align", "src/inner/unaligned.rs::try_reserve_additional_bytes_align"]}
{"id": "C14", "title": "try_reserve reports overflow instead of panicking", "statement": "For a power-of-two alignment, the `try_reserve*` methods always return a `Result`: requests that cannot be satisfied, up to `usize::MAX` bytes, give `Err` and never panic.", "quantifier": "for every state and every request, in debug and in release builds", "why_tests_cant": "Depends on build mode and on arithmetic close to usize::MAX for all states.", "anchors": ["src/lib.rs::UnsizedVec::try_reserve_capacity_bytes_align", "src/lib.rs::UnsizedVec::try_reserve_exact_capacity_bytes_align"]}
{"id": "C15", "title": "no reallocation while capacity suffices", "statement": "If `len() < capacity()`, `byte_len() + size_of_val(v) <= byte_capacity()` and `align_of_val(v) <= align()`, then adding `v` with `push`, `insert`, `push_with` or `insert_with` does not call the allocator: capacity and addresses stay the same.", "quantifier": "for every state and value meeting the capacity condition, for each of the four ways of adding", "why_tests_cant": "A universally quantified guarantee from the documentation; tests do not observe reallocation.", "anchors": ["src/lib.rs crate docs", "src/lib.rs::UnsizedVec::push", "src/inner/aligned.rs::push_with", "src/inner/unaligned.rs::push_with", "src/inner/aligned.rs::insert_with_unchecked"]}
{"id": "C16", "title": "push grows geometrically", "statement": "Whenever `push` has to enlarge the element storage and the allocator can satisfy the request, the byte capacity at least doubles. Hence n pushes copy only O(total bytes) in reallocation.", "quantifier": "for every sequence of pushes and every starting state", "why_tests_cant": "Amortised cost is a statement about unbounded sequences of operations.", "anchors": ["src/lib.rs::UnsizedVec::try_reserve_capacity_bytes_align"]}
{"id": "C17", "title": "reserve_exact with room to spare does not allocate", "statement": "`reserve_exact_capacity_bytes(n, b)` on a vector that already has `n` element slots and `b` bytes to spare does nothing ('This will not deliberately over-allocate').", "quantifier": "for every state and request already satisfied", "why_tests_cant": "Quantifies over all states; tests never look at the capacity after a repeated exact reservation.", "anchors": ["src/lib.rs::UnsizedVec::try_reserve_exact_capacity_bytes_align"]}
{"id": "C18", "title": "shrinking preserves the contents", "statement": "`shrink_to_fit`, `shrink_to`, `shrink_capacity_bytes_to` and `shrink_capacity_bytes_align_to` leave every element's bytes, metadata and position unchanged, whether or not the allocator can shrink; no undefined behaviour occurs.", "quantifier": "for every contents, every requested minimum, every allocator outcome", "why_tests_cant": "The failing case needs elements whose alignment is below that of the vector, with padding in between; and a failing shrink cannot be provoked from a test.", "anchors": ["src/inner/unaligned.rs::shrink_capacity_bytes_align_to", "src/inner/unaligned.rs::realign_down", "src/inner/aligned.rs::shrink_capacity_bytes_align_to", "src/inner/sized.rs::shrink_capacity_bytes_align_to"]}
{"id": "C19", "title": "shrinking respects the requested minimum and the length", "statement": "After a shrink call, `capacity() >= max(len, min(old capacity, min_capacity))`, `byte_len() <= byte_capacity() <= old byte_capacity`, `byte_capacity() >= min(old, requested)`, and `align()` is at least every element's alignment and at most the old one. `shrink_to(n)` does reduce the capacity of a vector of sized elements when it can.", "quantifier": "for every state, every request, every allocator outcome", "why_tests_cant": "All states and requests; an off-by-padding error needs particular sizes.", "anchors": ["src/lib.rs::UnsizedVec::shrink_to", "src/lib.rs::UnsizedVec::shrink_capacity_bytes_to", "src/inner/sized.rs::shrink_capacity_bytes_align_to", "src/inner/unaligned.rs::shrink_capacity_bytes_align_to"]}
{"id": "C20", "title": "byte_len never exceeds byte_capacity", "statement": "At all times `len() <= capacity()` and `byte_len() <= byte_capacity() <= isize::MAX`, after any sequence of safe calls.", "quantifier": "for every finite sequence of API calls", "why_tests_cant": "An invariant over all call sequences; the internal subtraction that relies on it is unchecked, so a violation is undefined behaviour.", "anchors": ["src/lib.rs::UnsizedVec::unused_byte_cap", "src/inner/unaligned.rs::aligned_byte_len", "src/inner/unaligned.rs::shrink_capacity_bytes_align_to"]}
{"id": "C21", "title": "dropping the vector drops each element exactly once", "statement": "Dropping a vector runs the destructor of every element it contains exactly once, in order, and then frees the element storage exactly once with the layout it was allocated with. If a destructor unwinds, no element is dropped twice.", "quantifier": "for every contents and every choice of panicking destructors", "why_tests_cant": "All contents and all subsets of panicking destructors; wrong-layout deallocation is silent.", "anchors": ["src/inner/aligned.rs::Drop", "src/inner/unaligned.rs::Drop"]}
{"id": "C22", "title": "unsizing a vector preserves its contents", "statement": "`vec.unsize()` / `From<Vec<S>>` / `unsize_vec!` style conversions yield a vector whose i-th element is the i-th original element, unsized, with every element owned exactly once.", "quantifier": "for every length, every element size and values", "why_tests_cant": "For all lengths; no test reads elements back after `unsize()`.", "anchors": ["src/lib.rs::UnsizedVec::unsize", "src/inner/aligned.rs::from_sized", "src/inner/unaligned.rs::from_sized"]}
{"id": "C23", "title": "adding a more strictly aligned element preserves the others", "statement": "When a reservation or push raises the alignment of a vector of dynamically aligned elements, all existing elements keep their bytes and order and are readable at their new positions.", "quantifier": "for every sequence of element sizes, every old and new power-of-two alignment", "why_tests_cant": "The in-place right-to-left move over all lengths, sizes and alignment pairs cannot be enumerated.", "anchors": ["src/inner/unaligned.rs::realign_up", "src/inner/unaligned.rs::len_after_realign_up", "src/inner/unaligned.rs::try_reserve_additional_bytes_align"]}
{"id": "C24", "title": "every element is stored at an address aligned for it", "statement": "At all times each element's address is a multiple of that element's alignment, and `align()` is at least the alignment of each element.", "quantifier": "for every finite sequence of API calls and every element alignment", "why_tests_cant": "Misaligned references do not fail on common hardware; the violating case needs an over-aligned zero-sized element.", "anchors": ["src/inner/unaligned.rs::try_reserve_additional_bytes_align", "src/inner/unaligned.rs::push_unchecked"]}
{"id": "C25", "title": "insert_with is panic safe", "statement": "If the value's constructor unwinds in the middle of `insert_with` or `push_with`, the vector afterwards contains exactly its original elements.", "quantifier": "for every contents, index, amount of partially written bytes", "why_tests_cant": "All layouts and all partial writes; tests have no panicking emplacable.", "anchors": ["src/inner/aligned.rs::insert_with_unchecked", "src/inner/unaligned.rs::insert_with_unchecked", "src/inner/sized.rs::insert_with_unchecked", "src/inner/unaligned.rs::push_with"]}
{"id": "C26", "title": "remove_into and pop_into never duplicate an element when the emplacer unwinds", "statement": "If the emplacer given to `remove_into(i)` or `pop_into()` unwinds before taking the value, the vector still contains all other elements, and no element is lost except possibly the one being removed.", "quantifier": "for every contents, index and unwinding emplacer", "why_tests_cant": "Requires unwinding emplacers in every position; behaviour differs between the three implementations.", "anchors": ["src/inner/sized.rs::remove_into_unchecked", "src/inner/aligned.rs::remove_into_unchecked", "src/inner/unaligned.rs::remove_into_unchecked", "src/inner/unaligned.rs::pop_into_unchecked"]}
{"id": "C27", "title": "a panicking destructor during removal does not lead to a double drop", "statement": "If the emplacable returned by `remove_into`/`pop_into` is dropped and the element's destructor panics, that element is no longer owned by the vector and its destructor is not run again.", "quantifier": "for every contents, index and set of panicking destructors", "why_tests_cant": "Double drops happen only with panicking destructors followed by a later drop of the vector.", "anchors": ["src/inner/aligned.rs::remove_into_unchecked", "src/inner/unaligned.rs::remove_into_unchecked", "src/inner/sized.rs::remove_into_unchecked", "emplacable/src/lib.rs::Drop for Emplacable"]}
{"id": "C28", "title": "element length is recovered from the stored size", "statement": "For slices, strings and trait objects, the pointer metadata (slice length, vtable) of an element read back from the vector equals the metadata it had when it was stored.", "quantifier": "for every element type of each kind and every length", "why_tests_cant": "All element types, including zero-sized slice elements, for which the stored size carries no information.", "anchors": ["src/helper.rs::MetadataFromSize", "src/helper.rs::MetadataRemainder"]}
{"id": "C29", "title": "padding arithmetic is exact and overflow-checked", "statement": "Rounding a size up to an alignment yields the least multiple of the alignment not below it, and the checked variants report failure exactly when that multiple exceeds isize::MAX (or the sum overflows); no intermediate overflow occurs.", "quantifier": "for every pointer width, every usize and every power-of-two alignment", "why_tests_cant": "2^64 times 64 inputs; boundary behaviour close to isize::MAX.", "anchors": ["src/helper/valid_size.rs::checked_pad_to", "src/helper/valid_size.rs::unchecked_pad_to", "src/helper/valid_size.rs::new_padded_to", "src/helper/valid_size.rs::checked_add_pad", "src/helper/valid_size.rs::max_for_align"]}
{"id": "C30", "title": "exactly the powers of two are accepted as alignments", "statement": "An alignment argument is accepted if and only if it is a power of two; otherwise the call panics. The internal representation covers every power of two below 2^BITS and `log2` is exact.", "quantifier": "for every usize and each supported pointer width", "why_tests_cant": "The whole usize range; the enum is hand-enumerated for three widths.", "anchors": ["src/helper/valid_align.rs::ValidAlign::new", "src/helper/valid_align.rs::ValidAlignEnum", "src/lib.rs::to_align"]}
{"id": "C31", "title": "every layout passed to the allocator is valid and fits its block", "statement": "Each allocate/grow/shrink/deallocate call made for element storage uses a non-zero-size layout whose size rounded up to its alignment is at most isize::MAX, and each grow/shrink/deallocate names the layout with which the block was allocated; at no time is a block leaked or freed twice by a non-unwinding operation.", "quantifier": "for every finite sequence of API calls and every allocator outcome", "why_tests_cant": "Allocator contract violations are undefined behaviour without visible symptoms.", "anchors": ["src/inner/aligned.rs::try_reserve_additional_bytes_align", "src/inner/unaligned.rs::try_reserve_additional_bytes_align", "src/inner/unaligned.rs::shrink_capacity_bytes_align_to", "src/inner/unaligned.rs::Drop"]}
{"id": "C32", "title": "extend and collect push the items in order", "statement": "`extend(iter)` appends all items of `iter` in order and `collect`/`from_iter`/`unsized_vec!` builds the vector of exactly those items.", "quantifier": "for every starting contents and every item sequence", "why_tests_cant": "Induction over unbounded item sequences with arbitrary sizes and alignments.", "anchors": ["src/lib.rs::Extend", "src/lib.rs::FromIterator", "src/lib.rs::unsized_vec"]}
{"id": "C33", "title": "comparison and hashing follow the contents", "statement": "`==` holds exactly when lengths agree and corresponding elements are equal; `cmp`/`partial_cmp` are the lexicographic order on elements and agree with `==`; equal vectors hash equally.", "quantifier": "for every pair (and triple) of contents and every element order", "why_tests_cant": "Order laws quantify over all triples of vectors.", "anchors": ["src/lib.rs::PartialEq", "src/lib.rs::PartialOrd", "src/lib.rs::Ord", "src/lib.rs::Hash"]}
{"id": "C34", "title": "clone is independent and equal", "statement": "Cloning a vector of sized, cloneable elements yields a vector with the same contents and leaves the original unchanged.", "quantifier": "for every contents, including zero-sized element types", "why_tests_cant": "All contents and element sizes; the failing case is zero-sized elements.", "anchors": ["src/lib.rs::Clone"]}
{"id": "C35", "title": "vectors of zero-sized types work", "statement": "`UnsizedVec<Z>` for a zero-sized sized type `Z` supports push, insert, reserve and shrink like any other vector.", "quantifier": "for every state of such a vector", "why_tests_cant": "The tests contain no zero-sized sized element type.", "anchors": ["src/inner/sized.rs::try_reserve_additional_bytes_align", "src/inner/sized.rs::shrink_capacity_bytes_align_to"]}
{"id": "C36", "title": "any sequence of calls behaves like a list", "statement": "After any finite sequence of API calls on a fresh vector, the contents, length, and everything returned agree with the same sequence of operations on a plain list of elements.", "quantifier": "for every finite sequence of operations, arguments and allocator outcomes", "why_tests_cant": "Unbounded sequences.", "anchors": ["src/lib.rs::UnsizedVec"]}
{"id": "C37", "title": "ownership is conserved over any sequence of calls", "statement": "Across any sequence of calls, every element handed to the vector is, at each point, in exactly one of: the vector, moved out to an emplacer, dropped, or deliberately forgotten; no element is duplicated.", "quantifier": "for every finite sequence of operations including drops and forgets of removed elements", "why_tests_cant": "Unbounded sequences; duplication is a memory-safety problem a test may not notice.", "anchors": ["src/lib.rs::UnsizedVec", "emplacable/src/lib.rs::Emplacable"]}
{"id": "C38", "title": "box_new_with builds the value and never leaks its box", "statement": "`box_new_with(e)` returns a box holding exactly the value of `e`, in an allocation of exactly the value's layout; if building the value unwinds, the allocation is released exactly once; for zero-sized values nothing is allocated.", "quantifier": "for every emplacable value, layout and allocator outcome", "why_tests_cant": "Leaks on unwinding and layout mismatches are not visible to tests.", "anchors": ["emplacable/src/lib.rs::box_new_with", "emplacable/src/lib.rs::PointerDeallocer"]}
{"id": "C39", "title": "an emplacable's value is dropped exactly once or not at all", "statement": "Dropping an `Emplacable` drops its value exactly once, `forget` drops it zero times, `get`/emplacing it moves it out without dropping; a buffer the emplacable owns (box, vector) is released exactly once in each case.", "quantifier": "for every emplacable built from a value, a box, a vector, a slice, an array or an iterator", "why_tests_cant": "All constructors combined with all consumers; double frees and leaks are silent.", "anchors": ["emplacable/src/lib.rs::Emplacable::forget", "emplacable/src/lib.rs::Emplacable::get", "emplacable/src/lib.rs::Drop for Emplacable", "emplacable/src/lib.rs::IntoEmplacable"]}
{"id": "C40", "title": "emplacables deliver exactly their value", "statement": "An emplacable made from a value, box, string slice, slice of cloneable elements or array, or unsized from one of these, delivers to the emplacer exactly that value: its bytes, its size and alignment as layout, and its metadata.", "quantifier": "for every source value and every emplacer", "why_tests_cant": "All values and sizes; the wrong address is only read for copyable element types, which the tests do not use.", "anchors": ["emplacable/src/lib.rs::IntoEmplacable", "emplacable/src/lib.rs::CopyToBuf", "emplacable/src/lib.rs::Emplacable::unsize"]}
{"id": "C41", "title": "a Vec converts to an emplacable slice of the same length", "statement": "Emplacing a `Vec<T>` as `[T]` produces a slice with exactly the vector's elements, announced to the emplacer with the layout of that slice.", "quantifier": "for every length and capacity", "why_tests_cant": "Needs a vector whose capacity exceeds its length together with a consumer that trusts the layout.", "anchors": ["emplacable/src/lib.rs::IntoEmplacable for Vec"]}
{"id": "C42", "title": "with_emplacable_for consumes the value exactly once", "statement": "`with_emplacable_for(val, f)` drops or moves `val` exactly once whatever `f` does with the emplacable, including when `f` unwinds.", "quantifier": "for every value and every behaviour of f", "why_tests_cant": "Quantifies over arbitrary callbacks, including ones that unwind after consuming the emplacable.", "anchors": ["emplacable/src/lib.rs::with_emplacable_for"]}
{"id": "C43", "title": "building a slice from an iterator of emplacables", "statement": "The slice emplacable built from `n` and an iterator writes the first `n` items, in order, contiguously; it panics when there are fewer than `n`, and items beyond `n` are not placed.", "quantifier": "for every n, iterator length and element layout", "why_tests_cant": "All lengths and mismatches between the announced and actual number.", "anchors": ["emplacable/src/lib.rs::Emplacable::from_iter"]}
{"id": "C44", "title": "moving elements between vectors", "statement": "`a.push_with(b.pop_into().unwrap())` or `a.push_with(b.remove_into(i))` moves the element from `b` to the end of `a` without dropping or duplicating anything.", "quantifier": "for every pair of contents, every index, all allocator outcomes of `a`", "why_tests_cant": "Two vectors of arbitrary contents and alignments.", "anchors": ["src/lib.rs::UnsizedVec::push_with", "src/lib.rs::UnsizedVec::pop_into", "src/lib.rs::UnsizedVec::remove_into"]}
{"id": "C45", "title": "searching methods visit the elements in order and stop at the deciding one", "statement": "`for_each`, `all`, `any`, `find`, `find_map` and `position` on an iterator call the closure for the remaining elements in order, stop right after the element that decides, return what the same search on the list of remaining elements returns, and leave the iterator with exactly the elements not visited.", "quantifier": "for every kind of vector, every contents, every position of the iterator, and every closure, including one with effects or that panics", "why_tests_cant": "Quantifies over all closures with effects and all iterator positions.", "anchors": ["src/lib.rs::for_each", "src/lib.rs::all", "src/lib.rs::any", "src/lib.rs::find", "src/lib.rs::find_map", "src/lib.rs::position"]}
{"id": "C46", "title": "formatting and serialization visit every element once in order", "statement": "`Debug::fmt` opens a list, makes one entry per element in order and finishes; `Serialize::serialize` announces the length, serializes each element in order, and ends, or stops at the first error and returns it.", "quantifier": "for every kind of vector, every contents and every formatter or serializer, including failing ones", "why_tests_cant": "Quantifies over all serializers and all points of failure.", "anchors": ["src/lib.rs::Debug", "src/lib.rs::Serialize"]}
{"id": "C47", "title": "Emplacables made of safe parts are safe", "statement": "An emplacable built by the crate from a value, a text, a cloned slice, or by `unsize`, array, slice and `from_iter` conversions of emplacables whose code may panic or abort at any point, always announces the layout that belongs to its metadata, writes exactly that many bytes when it succeeds and no more when it unwinds, and is never undefined behaviour when used or dropped. `from_iter` is safe whatever length the iterator claims.", "quantifier": "for all items (arbitrary programs with arbitrary unwinding), all numbers of items, all claimed lengths, all element sizes and alignments, all states", "why_tests_cant": "A test picks one panicking item at one position; the claim is about arbitrary code in every item, every position of the panic, and iterators that lie about their length.", "anchors": ["emplacable/src/lib.rs:531-666", "emplacable/src/lib.rs:709-1014", "emplacable/src/lib.rs:1130-1217"]}
{"id": "C48", "title": "nth_back returns the elements counted from the back", "statement": "`nth_back(n)` on an iterator (and on `iter().rev()` the method `nth`) returns the element that has exactly `n` remaining elements behind it, or none if at most `n` remain, and removes it and those behind it from the iterator, leaving the others in order.", "quantifier": "for every kind of vector, every contents, every n, and every sequence of next, next_back, nth and nth_back calls before and after", "why_tests_cant": "Quantifies over all contents and all interleavings of front and back calls; the wrong cases need particular interleavings.", "anchors": ["src/inner/unaligned.rs::next_back", "src/inner/aligned.rs::next_back", "src/lib.rs::nth_back", "src/lib.rs::DoubleEndedIterator"]}
{"id": "C49", "title": "Vec extends and collects from emplacables without loss", "statement": "`Vec::extend` and `Vec::from_iter` over an iterator of emplacables append the values that the emplacables stand for, in order, and drop nothing. If an item panics or memory is missing, `extend` leaves the old contents followed by the values obtained so far, drops only the one value there was no room for, and drops the iterator; `from_iter` drops each value obtained exactly once. Items within the lower bound of `size_hint` never fail for lack of room once the reservation has succeeded.", "quantifier": "for every element size including zero, every contents, every size hint, every list of items and the code in them, and every pattern of allocation failures and panics", "why_tests_cant": "Quantifies over arbitrary emplacables and over every point at which an item or an allocation can fail.", "anchors": ["emplacable/src/lib.rs::extend", "emplacable/src/lib.rs::from_iter", "emplacable/src/lib.rs::get"]}
{"id": "C50", "title": "Emplacables turn into Vec, String, Rc and Arc intact", "statement": "`into_vec` and the conversions of an emplacable into `Vec`, `String`, `CString`, `OsString` and `PathBuf` yield exactly the elements of the slice, with length and capacity equal to their number. `rc_new`, `rc_new_with`, `arc_new`, `arc_new_with` and the conversions into `Rc` and `Arc` yield an allocation with the two counters and the value at its alignment; the temporary box is released without dropping the value; dropping the result drops the value once and releases the memory. On failure nothing is leaked or dropped twice.", "quantifier": "for every size and alignment of the value including zero size, every emplacable, every allocator, and every pattern of panics", "why_tests_cant": "Quantifies over all layouts, all emplacables, and all failures of the allocator and of destructors.", "anchors": ["emplacable/src/lib.rs::into_vec", "emplacable/src/lib.rs::rc_new", "emplacable/src/lib.rs::rc_new_with", "emplacable/src/lib.rs::arc_new_with", "emplacable/src/lib.rs::box_new_with"]}
{"id": "C51", "title": "unsize!, by_value_str!, push_unsize and insert_unsize keep the value", "statement": "`unsize!` evaluates to the same bytes with the metadata of the coercion; `by_value_str!` to the `str` with the bytes of the literal. `push_unsize` and `insert_unsize` add exactly that value at the end or at the index, and leave the vector as it was when memory is missing; an index beyond the end panics.", "quantifier": "for every size and alignment including zero size, every value and literal, every vector, index and allocator", "why_tests_cant": "Quantifies over all types, values and vectors.", "anchors": ["emplacable/src/lib.rs::unsize", "emplacable/src/lib.rs::by_value_str", "src/lib.rs::push_unsize", "src/lib.rs::insert_unsize"]}
{"id": "C52", "title": "no value out of thin air, no uninitialised byte", "statement": "Whatever holds of every value a program gives to a vector also holds of every value it later sees in it or takes out of it, and of every value whose destructor the vector runs. In particular, if only fully initialised values are given, no byte that has not been written since its memory was allocated (padding, spare capacity, the rest of an abandoned emplacement) is ever shown or passed to a destructor.", "quantifier": "for every predicate on values, every program of calls with any panics and refused allocations in between, every element type, size and alignment", "why_tests_cant": "Uninitialised memory usually looks like ordinary bytes, and the claim is about every program and every layout of padding.", "anchors": ["src/inner/unaligned.rs::get_unchecked", "src/inner/unaligned.rs::realign_up", "src/inner/unaligned.rs::realign_down", "src/inner/aligned.rs::get_unchecked", "src/inner/unaligned.rs::drop"]}
{"id": "C53", "title": "an element that is not accepted is destroyed once", "statement": "When push, insert, push_with or insert_with panics because the index is out of range or the vector cannot grow, the element handed over is destroyed exactly once, nothing else is destroyed, and the vector still holds its old elements. If that destructor panics too, the process aborts.", "quantifier": "for every vector of each of the three kinds, every element, every index, every allocator behaviour and every destructor", "why_tests_cant": "A leaked or doubly destroyed argument is invisible unless the element counts its destructions, and the failing paths need an allocator that refuses or sizes near the limit.", "anchors": ["src/lib.rs::push", "src/lib.rs::insert", "src/lib.rs::push_with", "src/lib.rs::insert_with", "emplacable/src/lib.rs::into_emplacable"]}
{"id": "C54", "title": "the observers report the contents", "statement": "For a vector that holds the elements xs: len() is their number, is_empty() is true exactly if there are none, byte_len() is the sum of their sizes, each rounded up to the alignment of the vector if alignment is dynamic, capacity() is at least len(), byte_capacity() at least byte_len(), and align() is a multiple of the alignment of each. new() and default() have no elements and no memory.", "quantifier": "for every vector of each of the three kinds, also after shrinking to a capacity that is not a multiple of the alignment", "why_tests_cant": "Tests compare the observers on a few vectors; the claim relates them to the contents for every list of elements and alignment.", "anchors": ["src/lib.rs::len", "src/lib.rs::byte_len", "src/lib.rs::is_empty", "src/lib.rs::capacity", "src/lib.rs::byte_capacity", "src/lib.rs::align", "src/lib.rs::default"]}
{"id": "C55", "title": "filling a vector copies amortised linearly", "statement": "Filling a vector with extend, from_iter, unsized_vec! or repeated push_with copies, in total, only a constant number of times the bytes of the items, as repeated push does; and if enough memory has been reserved beforehand nothing is reallocated.", "quantifier": "for every vector, every sequence of items of any sizes and alignments, and every allocator", "why_tests_cant": "The total number of copied bytes is a sum over a sequence of any length; tests see only that the result is right.", "anchors": ["src/lib.rs::extend_inner", "src/lib.rs::from_iter", "src/lib.rs::push_with", "src/inner/aligned.rs::push_with", "src/inner/unaligned.rs::push_with"]}
{"id": "C56", "title": "reserve once, then push", "statement": "After a method of the reserve family (or with_capacity…) has returned for n more elements, b more bytes and an alignment a, up to n elements of together at most b bytes and of alignment at most a can be pushed one after the other without the allocator being asked: every push returns, and capacity, byte capacity, alignment and address stay what they are after the reservation.", "quantifier": "for every vector of each of the three kinds, every reservation method, every sequence of elements of any length, and whatever the allocator would answer during the pushes", "why_tests_cant": "test_capacity_growth and src/bin/stress.rs try two sequences and look at the byte capacity; the claim is about all sequences, and that no call of the allocator is made cannot be seen with an allocator that always succeeds.", "anchors": ["src/lib.rs::UnsizedVec", "src/lib.rs::reserve_capacity_bytes_align", "src/lib.rs::with_capacity_bytes_align", "src/lib.rs::push", "tests/test.rs::test_capacity_growth", "src/bin/stress.rs"]}
{"id": "C57", "title": "the documented memory layout", "statement": "The elements lie in memory as the documentation of UnsizedVec says: get finds every element; the first one is at the start of the storage; every next one begins where the one before it ends, for slices without padding, for trait objects after its size has been rounded up to the alignment of the vector, which is at least that of the most-aligned element; and the last one ends within the capacity in bytes. In particular no two elements overlap.", "quantifier": "for every vector of each of the three kinds, of any number of elements of any sizes and alignments, after every sequence of calls", "why_tests_cant": "The tests compare contents and never look at addresses; overlapping or misplaced elements are seen only if the bytes happen to differ.", "anchors": ["src/lib.rs::UnsizedVec", "src/lib.rs::get", "src/inner/unaligned.rs::get_unchecked_raw", "src/inner/aligned.rs::get_unchecked_raw"]}
{"id": "C58", "title": "a vector gives nothing up by itself", "statement": "Without a call of the shrink family, capacity, capacity in bytes and alignment of a vector never become smaller, also when elements are removed, when calls panic or fail, and when the allocator refuses; the alignment becomes larger only if a call asks for a larger one, so that nothing has to be padded anew as long as no element is more aligned than usize; and if capacity, capacity in bytes and alignment are unchanged then so is the memory.", "quantifier": "for every vector, every sequence of calls of any length without shrinking, every behaviour of the allocator and of destructors", "why_tests_cant": "test_capacity_growth looks at one sequence of pushes; the claim is about all sequences, and about failing and panicking calls.", "anchors": ["src/lib.rs::UnsizedVec", "src/lib.rs::pop_into", "src/lib.rs::remove_into", "src/lib.rs::reserve_capacity_bytes_align", "src/lib.rs::try_reserve_exact_capacity_bytes_align"]}
{"id": "C59", "title": "length and metadata follow the list", "statement": "Whatever a program does with a vector, the number of its elements and the pointer metadata each is read with (vtable, slice length) are those of the list the calls describe: push and insert add one entry, pop and remove take one away and hand it out, a call that panics leaves them alone (except that pop, and remove_into of sized elements, have already given an element up), and nothing else changes them; len, get and indexing report accordingly. This holds also for calls that put the bytes of elements in the wrong place.", "quantifier": "for every state of the vector, every sequence of calls of any length with any arguments, every behaviour of the allocator, of destructors and of emplacables; without undefined behaviour", "why_tests_cant": "tests look at a few vectors in good states; the claim is about every state, including those reached after caught panics and after calls that misplace bytes, where reading an element with the wrong vtable would be memory-unsafe.", "anchors": ["src/inner/unaligned.rs::insert_unchecked", "src/inner/unaligned.rs::remove_into_unchecked", "src/inner/aligned.rs::insert_unchecked", "src/inner/aligned.rs::remove_into_unchecked", "src/inner/sized.rs::remove_into_unchecked", "src/lib.rs::len"]}
{"id": "C60", "title": "the announced layout of a removed element is its own", "statement": "`ALIGN` of a statically aligned element type is the alignment of its values, as the trait `Aligned` promises. The emplacables returned by `pop_into` and `remove_into` announce the size, the alignment and the metadata of the element; so a box made from one (`box_new_with`) is allocated with the layout of its contents, and dropping it is no undefined behaviour.", "quantifier": "for every element type, vector contents, index, allocator and target", "why_tests_cant": "The layout is not visible to safe code, and freeing with another alignment goes unnoticed with most allocators.", "anchors": ["src/marker.rs::Aligned", "src/helper.rs::MetadataFromSize", "src/helper/valid_size.rs::ValidSize", "src/inner/aligned.rs::pop_into_unchecked", "src/inner/aligned.rs::remove_into_unchecked", "emplacable/src/lib.rs::box_new_with"]}
{"id": "C61", "title": "debug and release builds agree", "statement": "The debug assertions of the crate (`debug_assert!`) only ever stop a program early: a program that observes no panic in a build with debug assertions observes exactly the same in a build without them, and a program that uses only safe functions never fails an assertion, so it behaves the same in both builds.", "quantifier": "for every program of safe calls, allocator behaviour, element type and starting vector", "why_tests_cant": "Tests run in one build at a time, and mostly with debug assertions; an assertion with a side effect, or one that fails for a legal call only when memory is short, shows up in the other build.", "anchors": ["src/lib.rs::try_reserve_capacity_bytes_align", "src/lib.rs::push", "src/lib.rs::insert", "src/inner/unaligned.rs::push_unchecked", "src/inner/unaligned.rs::insert_unchecked", "src/inner/unaligned.rs::shrink_capacity_bytes_align_to", "src/inner/aligned.rs::push_unchecked", "src/inner/sized.rs::push_unchecked"]}
{"id": "C62", "title": "misuse of the internal unsafe functions is caught in debug builds", "statement": "The internal functions `push_unchecked`, `insert_unchecked`, `pop_into_unchecked`, `remove_into_unchecked`, `realign_up` and `realign_down` check in debug builds what they require of the caller (index in range, a free record, enough bytes, sufficient alignment, a vector that is not empty): if it is not met they panic and leave the vector as it is.", "quantifier": "for every vector, index and value", "why_tests_cant": "The public functions never violate the requirements, so no test reaches a failing assertion; whether one is missing or too weak does not show.", "anchors": ["src/inner.rs::UnsizedVecProvider", "src/inner/unaligned.rs::insert_unchecked", "src/inner/unaligned.rs::push_unchecked", "src/inner/aligned.rs::insert_unchecked", "src/inner/aligned.rs::push_unchecked", "src/inner/sized.rs::insert_unchecked", "src/inner/sized.rs::push_unchecked", "src/inner/unaligned.rs::realign_up"]}
{"id": "C63", "title": "programs that use several vectors", "statement": "In a program that uses any number of vectors, a call on one vector leaves the others as they are, and moving an element from one vector to another (`a.push_with(b.pop_into()?)`, `a.insert_with(i, b.remove_into(j))`) takes it out of one list and puts it into the other. All observations are those of lists; an operation fails only if memory is short, and then leaves everything as it was. Every value that was put into some vector is, at the end, in exactly one vector, or dropped exactly once, or was given out.", "quantifier": "for all numbers of vectors and all programs", "why_tests_cant": "A test moves a few elements between two vectors; the interleavings of calls, moves, panics and refused allocations over many vectors are unbounded.", "anchors": ["src/lib.rs::UnsizedVec::push_with", "src/lib.rs::UnsizedVec::insert_with", "src/lib.rs::UnsizedVec::pop_into", "src/lib.rs::UnsizedVec::remove_into", "emplacable/src/lib.rs::Emplacable"]}
{"id": "C64", "title": "the implementation, the allocator and the history of a vector cannot be observed", "statement": "Which of the three implementations is selected by specialization, what the allocator answers (as long as it does not refuse), how much capacity a vector has, at which address its memory is, how its elements are padded and what was done with it before make no difference to a program: on vectors with the same elements the same calls give the same results and leave the same elements.", "quantifier": "for all programs and all pairs of vectors with the same elements", "why_tests_cant": "A test runs one implementation, chosen by the compiler, with one allocator; it cannot compare two implementations for the same type, and there are infinitely many programs and states.", "anchors": ["src/inner.rs::UnsizedVecImpl", "src/inner.rs::AlignedVecImpl", "src/inner/unaligned.rs::UnalignedVecInner", "src/inner/aligned.rs::AlignedVecInner", "src/inner/sized.rs::UnsizedVecProvider"]}
{"id": "C65", "title": "exact capacities, and src/bin/stress.rs", "statement": "If the allocator grants exactly what it is asked for (as the global allocator does), then `with_capacity_bytes(n, b)` and its relatives give a byte capacity of exactly `b`, `reserve_exact_capacity_bytes(n, b)` enlarges it by exactly `b`, and it stays so while elements are pushed that fit. Therefore the assertion in src/bin/stress.rs never fails: not for the 255 turns of the loop in the source, nor for any number up to 256, whatever the arrays contain; at the end all memory has been given back.", "quantifier": "for all capacities asked for; for all contents of the arrays and all numbers of turns up to 256", "why_tests_cant": "stress.rs runs one number of turns with one set of arrays, and only where it is run; it does not show that the assertion is independent of both.", "anchors": ["src/bin/stress.rs::main", "src/lib.rs::UnsizedVec::with_capacity_bytes", "src/lib.rs::UnsizedVec::with_capacity_bytes_align", "src/lib.rs::UnsizedVec::reserve_exact_capacity_bytes", "src/lib.rs::UnsizedVec::push_unsize"]}
{"id": "C66", "title": "programs that decide what to do next by what they have observed", "statement": "A program that chooses each call to a vector as any function of everything it has observed so far, and that need not end, observes at every point what it would observe with a list instead of the vector (except that calls that need memory may fail), has no undefined behaviour, and never lets a value be dropped twice or be lost; and no such program can find out which of the three implementations its vector belongs to.", "quantifier": "for all strategies (functions from observations to the next call and its environment), all numbers of calls, all vectors and all allocators", "why_tests_cant": "A test is one fixed strategy that ends after some number of calls; the strategies that react to results are not enumerable.", "anchors": ["src/lib.rs::UnsizedVec", "src/inner.rs::UnsizedVecProvider", "src/inner/unaligned.rs::UnalignedVecInner", "src/inner/aligned.rs::AlignedVecInner", "src/inner/sized.rs"]}
{"id": "C67", "title": "the examples in the documentation do what the documentation says", "statement": "Each example in the documentation of the crate, with any values in place of the literals, shows what the text says (elements come out as they went in, in the order they went in; lengths are as stated; the two vectors of `push_with` and `insert_with` exchange the element), and leaves the vectors with the expected elements, unless memory is short, in which case a call panics or the process is aborted.", "quantifier": "for all values (of all sizes and alignments, and any number of them where the example has a list), all allocators, all three implementations", "why_tests_cant": "The doc tests run each example with one choice of literals (mostly integers and short strings of one alignment) and compare nothing: most of them only print.", "anchors": ["src/lib.rs::UnsizedVec", "src/lib.rs::unsized_vec", "src/lib.rs::unsize_vec", "README.md", "examples/rust-book-17-02.rs"]}
{"id": "C68", "title": "the time complexity is that of Vec", "statement": "Indexing takes constant time; `pop_into` copies at most the last element; pushing any sequence of elements onto a new vector copies and visits in total at most a constant times the bytes and records pushed (amortized constant time per byte); `push` with room copies just the element; `insert` and `remove_into` copy and visit, apart from that, at most what is behind the index; and the only exception is that raising the alignment of a vector with dynamically aligned elements visits all elements.", "quantifier": "for all vectors, elements, indices, allocators, destinations of removed elements, and all sequences of pushes", "why_tests_cant": "No test measures time or counts copies; the benchmark compares wall-clock times of one workload and asserts nothing.", "anchors": ["src/lib.rs::UnsizedVec::push", "src/lib.rs::UnsizedVec::push_with", "src/lib.rs::UnsizedVec::insert", "src/lib.rs::UnsizedVec::remove_into", "src/lib.rs::UnsizedVec::pop_into", "src/inner/unaligned.rs", "src/inner/aligned.rs", "README.md"]}
{"id": "C69", "title": "both sides of the emplacement protocol keep their contract", "statement": "An exchange between any emplacable and any emplacer that respect the safety sections of `Emplacable::from_fn`, `Emplacer::from_fn` and `Emplacer::into_fn` is never undefined behaviour: if it returns, the value has been delivered, dropped or forgotten; if it unwinds or aborts, one of the two sides did so, and the emplacer not after the inner closure returned. All emplacers of the two crates (`push_with` and `insert_with` of the three implementations, `box_new_with`, `Emplacable::get`, `forget`, `drop`) and all emplacables (values, `Box`, `Vec`, `&str`, cloned slices, arrays, `pop_into`, `remove_into`) keep this contract.", "quantifier": "for all emplacables and emplacers, including ones written by users of the crates, all vectors, elements, indices and allocators", "why_tests_cant": "The contract quantifies over every closure that a user may write for the other side, including closures that unwind midway, decline the value or ignore it; tests only combine the two sides that the crates themselves provide.", "anchors": ["emplacable/src/lib.rs::Emplacable::from_fn", "emplacable/src/lib.rs::Emplacer::from_fn", "emplacable/src/lib.rs::Emplacer::into_fn", "emplacable/src/lib.rs::box_new_with", "src/inner/unaligned.rs", "src/inner/aligned.rs", "src/inner/sized.rs"]}
{"id": "C70", "title": "every type is stored by the implementation that suits it", "statement": "For every type of Rust, specialization selects the implementation the documentation promises: `Vec` exactly for sized types, the implementation without padding for slices, `str` and `CStr`, and the one that keeps track of alignments for trait objects and structs with an unsized last field. The type meets what the selected implementation relies on (the alignment is static and equal to `ALIGN`, the metadata can be recovered from what is recorded), and only of slices the offset alone is recorded. So a vector of any type, created by `new`, does what a list does.", "quantifier": "for all types of Rust as far as their layout goes (sized types of any size and alignment, slices of them, `str`, `CStr`, trait objects, structs nested to any depth around these), all programs and allocators", "why_tests_cant": "There are infinitely many types; the tests instantiate the vectors with a handful of them, and none with a struct that has an unsized last field.", "anchors": ["src/marker.rs::Aligned", "src/helper.rs::MetadataFromSize", "src/helper.rs::SplitMetadata", "src/inner.rs::UnsizedVecImpl", "src/inner.rs::AlignedVecImpl", "src/inner/aligned.rs::AlignedVecImpl", "src/inner/sized.rs::AlignedVecImpl", "src/inner/unaligned.rs::UnsizedVecImpl", "src/lib.rs::UnsizedVec"]}
{"id": "C71", "title": "vectors cross threads and stand for other vectors exactly if their elements allow it", "statement": "A vector can be sent to another thread if and only if its elements can (`T: Send`), and shared if and only if they can (`T: Sync`); an iterator can be sent if and only if the elements can be shared, a mutable one if and only if they can be sent; as with `Vec`. A vector or iterator is accepted as one for elements of another type only if a value of the first type may be used as one of the second, and a mutable iterator only if the types are the same. An `Emplacable` can be sent and shared if and only if its closure can.", "quantifier": "for all element types (sized, slices, `str`, `CStr`, trait objects, structs nested to any depth), whichever of `Send` and `Sync` they implement, for vectors, iterators and mutable iterators, and all pairs of types related by subtyping", "why_tests_cant": "A test compiles or does not; it says nothing about types other than its own, and that something is rejected cannot be tested by running code. None of the tests uses a second thread.", "anchors": ["src/lib.rs::UnsizedVec", "src/lib.rs::UnsizedIter", "src/lib.rs::UnsizedIterMut", "src/inner/aligned.rs::AlignedVecInner", "src/inner/unaligned.rs::UnalignedVecInner", "src/helper/valid_size.rs::ValidSize", "src/helper.rs::MetadataRemainder", "emplacable/src/lib.rs::Emplacable"]}
{"id": "C72", "title": "iterators know how many elements are left and stay at their end", "statement": "After any sequence of `next`, `next_back`, `nth` and `nth_back` calls on `iter()` or `iter_mut()`, both bounds of `size_hint` as well as `len` and `count` equal the number of elements left, and the assertion inside `ExactSizeIterator::len` never fails. So many further calls of `next` or `next_back` return an element. Once any call has returned `None`, every later call returns `None`.", "quantifier": "for all vectors of each of the three implementations, and all sequences of calls with all arguments", "why_tests_cant": "The tests never ask an iterator for its length or size hint, and no test calls an iterator again after its end.", "anchors": ["src/lib.rs::UnsizedIter", "src/lib.rs::UnsizedIterMut", "src/inner/aligned.rs::AlignedIter", "src/inner/unaligned.rs::UnalignedIter"]}
{"id": "C73", "title": "the benchmarks measure what they are meant to: linear cost, no reallocation after preallocation, nothing leaked", "statement": "`test_push_arrays` (benches/bench.rs): whatever the allocator does, every array that has been pushed is destroyed exactly once and all memory is given back, also if a push panics; with an exact allocator that grants everything it returns, and the loop moves at most 294 bytes and records per turn (plus 4 in all). `test_push_arrays_preallocated`: up to 256 turns the loop succeeds without the allocator, so it returns unless the memory asked for beforehand is refused.", "quantifier": "for all contents of the arrays, all valid allocators (also different ones in each turn), and all numbers of turns (up to 256 with preallocation)", "why_tests_cant": "Benchmarks check nothing and are not run by `cargo test`; a run shows a time for one number of turns and one allocator.", "anchors": ["benches/bench.rs::test_push_arrays", "benches/bench.rs::test_push_arrays_preallocated"]}
{"id": "C74", "title": "the assertions of the repository's tests hold for all values", "statement": "The tests of tests/test.rs that use a vector (`test_sized`, `test_unsized_drop`, `test_dyn`, `test_unsized_aligned`), with arbitrary values in place of the literals: every assertion holds, nothing is dropped before the end that the test still owns, and the vector holds what the test leaves in it; unless memory is short, and then a call panics or the process is aborted.", "quantifier": "for all element types, all values (the written bytes having the size of the element), and all valid allocators, a different one for each call", "why_tests_cant": "A test checks the literals in it with one allocator; `test_dyn` passes with `()` but not with a zero-sized value of a stricter alignment.", "anchors": ["tests/test.rs::test_sized", "tests/test.rs::test_unsized_drop", "tests/test.rs::test_dyn", "tests/test.rs::test_unsized_aligned"]}
