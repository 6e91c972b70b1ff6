import Verif.Spec.Basic
import Verif.Model.Api

/-!
# The abstraction relation for vectors of sized elements
-/

namespace Verif
namespace SVec
variable {sz al : Nat} {β : Type}

/-- The `Vec<T>` `v` has the elements `xs`: element `i` is in slot `i`, the length is right, and the buffer is not larger than
`isize::MAX` bytes. -/
structure Holds (c : Cfg) (v : SVec sz al β) (xs : List (Val (sizedTy sz al) β)) : Prop where
  wf : ∀ x ∈ xs, x.WF c
  len : v.len = xs.length
  mem : ∀ i (h : i < xs.length), v.mem i = xs[i].bytes
  slotLen : ∀ i, (v.mem i).length ≤ sz
  cap : xs.length ≤ v.capacity c
  capMax : v.capacity c * sz ≤ c.isizeMax

/-- What a user sees: the values behind the references `get(0)`, …, `get(len - 1)`. -/
def observe (v : SVec sz al β) : Option (List (Val (sizedTy sz al) β)) := (List.range v.len).mapM v.getUnchecked

/-- Number of free slots. -/
def free (c : Cfg) (v : SVec sz al β) : Nat := v.capacity c - v.len

/-- A reservation of `n` elements and `b` bytes for which the byte arithmetic of the code is right: the bytes are covered by
the elements asked for or by the free slots, or no elements are asked for and there is no free slot. -/
def BytesOk (c : Cfg) (v : SVec sz al β) (n b : Nat) : Prop := b ≤ max n (v.free c) * sz ∨ (n = 0 ∧ v.free c = 0)

/-- Why a reservation of `n` elements fails with error `e`. -/
def Fails (c : Cfg) (sz : Nat) {X : Type} (env : Env X) (len n : Nat) (e : TRE) : Prop :=
  (e = .capacityOverflow ∧ maxSlots c sz < len + n) ∨ env.infoGrow (len + n) = .error e

/-- There is no room for one more element: no slot is free, and the length is at its maximum or the environment refuses the
memory. -/
def NoSlot (c : Cfg) {X : Type} (env : Env X) (v : SVec sz al β) : Prop := v.capacity c = v.len ∧ ∃ e, Fails c sz env v.len 1 e

end SVec
end Verif
