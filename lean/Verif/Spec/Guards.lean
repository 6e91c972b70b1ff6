import Verif.Spec.Holds

/-!
# Conditions that occur in the theorems

`TooLarge` says when a request cannot be met because the address space is exhausted. The other definitions describe
the calls for which the code behaves as documented; each has a counterexample in `Verif/Props` showing that the
code misbehaves outside of it (DESIGN.md, "Disagreements").
-/

namespace Verif

namespace UVec
variable {T : UTy} {β : Type}

/-- The excluded case: a zero-sized element whose alignment exceeds that of a vector that has no memory. -/
def ZstOk (v : UVec T β) (n al : Nat) : Prop := v.byteCap = 0 → n = 0 → al ≤ v.align

/-- The excluded case: the byte capacity is not a multiple of the alignment (after shrinking), and `n` more bytes fit, but not
together with the padding behind them. -/
def RoomOk (v : UVec T β) (xs : List (Val T β)) (n : Nat) : Prop :=
  v.align ∣ v.byteCap ∨ totalWidth (padTo v.align) xs + padTo v.align n ≤ v.byteCap ∨ v.byteCap < totalWidth (padTo v.align) xs + n

/-- The memory block needed for `bytes` more bytes with alignment `al`: the byte capacity, plus what the elements grow
by under the new alignment, plus the request, rounded up. -/
def request (v : UVec T β) (xs : List (Val T β)) (bytes al : Nat) : Layout :=
  ⟨padTo (max v.align al) (padTo (max v.align al)
      (v.byteCap + (totalWidth (padTo (max v.align al)) xs - totalWidth (padTo v.align) xs)) + bytes), max v.align al⟩

/-- The bytes do not fit into the address space: the needed block exceeds `isize::MAX`. -/
def BytesTooLarge (c : Cfg) (v : UVec T β) (xs : List (Val T β)) (bytes al : Nat) : Prop :=
  c.isizeMax < (request v xs bytes al).size

/-- The request does not fit into the address space (or into the element-info `Vec`). -/
def TooLarge (c : Cfg) (v : UVec T β) (xs : List (Val T β)) (n bytes al : Nat) : Prop :=
  c.infoMax < xs.length + n ∨ BytesTooLarge c v xs bytes al

/-- The element can be inserted at `i`: not at the end, or the vector is empty, or there is no padding behind the last
element under the alignment `a` that the vector will have. -/
def InsertOk (xs : List (Val T β)) (i a : Nat) : Prop :=
  i < xs.length ∨ xs = [] ∨ ∀ y, xs.getLast? = some y → a ∣ y.size

/-- `insert` at `k` is covered: `InsertOk`, and the elements before occupy exactly `k` bytes. -/
def InsertPlainOk (v : UVec T β) (xs : List (Val T β)) (k : Nat) : Prop :=
  InsertOk xs k v.align ∧ totalWidth (padTo v.align) (xs.take k) = k

/-- The removal of element `k` can be carried out: the element before a removed last element has no padding behind it. -/
def RemoveOk (v : UVec T β) (xs : List (Val T β)) (k : Nat) : Prop :=
  k + 1 < xs.length ∨ k = 0 ∨ ∀ x, xs[k - 1]? = some x → v.align ∣ x.size

/-- Bytes that can be added without reallocation. -/
def spare (v : UVec T β) (xs : List (Val T β)) : Nat := v.byteCap - totalWidth (padTo v.align) xs

/-- What a user sees: the values behind the references `get(0)`, `get(1)`, …, `get(len - 1)`; `none` if one of them is
invalid. -/
def observe [Inhabited β] (c : Cfg) (v : UVec T β) : Option (List (Val T β)) :=
  (List.range v.len).mapM (fun i => (v.getUnchecked c i).map (Ref.read v.heap))

end UVec

namespace AVec
variable {A : ATy} {β : Type}

/-- The memory block needed for `bytes` more bytes. -/
def request (v : AVec A β) (bytes : Nat) : Layout := ⟨v.byteCap + bytes, A.ALIGN⟩

/-- The request does not fit into the address space (or into the element-info `Vec`). -/
def TooLarge (c : Cfg) (v : AVec A β) (xs : List (Val A.ty β)) (n bytes : Nat) : Prop :=
  c.infoMax < xs.length + n ∨ VS.max c A.ALIGN < (request v bytes).size

/-- Bytes that can be added without reallocation. -/
def spare (v : AVec A β) (xs : List (Val A.ty β)) : Nat := v.byteCap - totalWidth id xs

/-- What a user sees: the values behind the references `get(0)`, `get(1)`, …, `get(len - 1)`; `none` if one of them is
invalid. -/
def observe [Inhabited β] (c : Cfg) (v : AVec A β) : Option (List (Val A.ty β)) :=
  (List.range v.len).mapM (fun i => (v.getUnchecked c i).map (Ref.read v.heap))

end AVec
end Verif
