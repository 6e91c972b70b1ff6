import Verif.Spec.Iter

/-!
# How many items an iterator says are left

`size_hint`, `count` and `len` of the iterators. `std::slice::Iter`, over the recorded ends of the elements or over the
elements themselves, returns its length for all three.
-/

namespace Verif

namespace UIter
variable {T : UTy}

/-- `UnalignedIter::size_hint` (src/inner/unaligned.rs:1114–1116): that of the slice iterator over `elems_info`. -/
def sizeHint (it : UIter T) : Nat × Option Nat := (it.infos.length, some it.infos.length)

/-- `UnalignedIter::count` (src/inner/unaligned.rs:1119–1124) -/
def count (it : UIter T) : Nat := it.infos.length

end UIter

namespace AIter
variable {A : ATy}

/-- `AlignedIter::size_hint` (src/inner/aligned.rs:722–724) -/
def sizeHint (it : AIter A) : Nat × Option Nat := (it.infos.length, some it.infos.length)

/-- `AlignedIter::count` (src/inner/aligned.rs:727–729) -/
def count (it : AIter A) : Nat := it.infos.length

end AIter

namespace SVec

/-- `slice::Iter::size_hint` -/
def Iter.sizeHint (it : Iter) : Nat × Option Nat := (it.hi - it.lo, some (it.hi - it.lo))

/-- `slice::Iter::count` -/
def Iter.count (it : Iter) : Nat := it.hi - it.lo

end SVec

/-- `ExactSizeIterator::len` of `UnsizedIter` and `UnsizedIterMut` (src/lib.rs:1355–1358): the trait's own, which asserts
that both bounds of `size_hint` (src/lib.rs:1273–1275) agree. `none` is the panic of this assertion. The `len` of the inner
iterators (src/inner/unaligned.rs:1202–1207, src/inner/aligned.rs:797–802) is not called by it. -/
def exactLen (hint : Nat × Option Nat) : Option Nat := if hint.2 = some hint.1 then some hint.1 else none

end Verif
