import Verif.Spec.Holds
import Verif.Spec.Guards

/-!
# A `Vec<S>` that is to be unsized
-/

namespace Verif

/-- The `Vec<S>` with raw parts `r` has the elements `xs` (a list of byte sequences): what the standard library guarantees about
length, capacity, layout and memory of a `Vec`. -/
structure RawVec.Holds {β : Type} (c : Cfg) (r : RawVec β) (xs : List (List β)) : Prop where
  len : r.len = xs.length
  bytes : ∀ bs ∈ xs, bs.length = r.elemSize
  al : IsAlign c r.elemAlign
  sizeDvd : r.elemAlign ∣ r.elemSize
  sizeMax : r.elemSize + (r.elemAlign - 1) ≤ c.isizeMax
  room : xs.length ≤ r.cap
  capMax : r.cap * r.elemSize ≤ VS.max c r.elemAlign
  mem : ∀ i (h : i < xs.length), BytesAre r.heap.mem (i * r.elemSize) xs[i]
  block : BlockOk r.heap r.ptr (r.cap * r.elemSize) r.elemAlign
  leaks : r.heap.leaks = 0

/-- The element with these bytes, after unsizing with metadata `md`. -/
def unsized {T : UTy} {β : Type} (md : T.Meta) (bs : List β) : Val T β := ⟨md, bs⟩

end Verif
