import Verif.Spec.History

/-!
# Calls that are covered whatever state the vector is in

`UVec.Covered` (`Spec/History`) refers to the vector. `UVec.Plain` is a stronger condition that refers to the elements only: so a
program can be checked by looking at the program and at a list, not at the vector.
-/

namespace Verif
namespace UVec
variable {T : UTy} {β : Type}

/-- An element of that size and alignment may be added. `lo` is the alignment that the vector started with, `hi` is a bound for the
alignments of the program. -/
def Addable (lo hi size align : Nat) : Prop := align ≤ hi ∧ (0 < size ∨ align ≤ lo)

/-- Calls that are covered, for vectors that started with at least the alignment `lo`, in a program that is never concerned with
elements or requests of an alignment above `hi`: adding at the end, unless the element is of size zero and is aligned to more than `lo`;
`insert` at the front; `insert_with` and `remove_into` everywhere except at the end; at the end, only if
the size of the last element, or of the element before the removed one, is a multiple of `hi`; reserving; reading and writing. No
shrinking. -/
def Plain (c : Cfg) (lo hi : Nat) (env : Env (Val T β)) (op : Op T β) (xs : List (Val T β)) : Prop :=
  match op with
  | .push x | .pushWith (.value x) => Addable lo hi x.size x.align
  | .pushWith (.fails md _) => Addable lo hi (T.sizeOf md) (T.alignOf md)
  | .insert i x => Addable lo hi x.size x.align ∧ (i ≤ xs.length → i = 0)
  | .insertWith i (.value x) => Addable lo hi x.size x.align ∧ (i = xs.length → ∀ y, xs.getLast? = some y → hi ∣ y.size)
  | .insertWith i (.fails md _) => Addable lo hi (T.sizeOf md) (T.alignOf md) ∧
      (i = xs.length → ∀ y, xs.getLast? = some y → hi ∣ y.size)
  | .remove i d => (d ≠ .panics → 0 < i → i + 1 = xs.length → ∀ y, xs[i - 1]? = some y → hi ∣ y.size) ∧
      (d = .drop → ∀ x, xs[i]? = some x → env.dropPanics x = false)
  | .reserve q | .tryReserve q => IsAlign c q.align ∧ q.align ≤ hi
  | .shrink _ => False
  | .iter ks | .iterMut ks _ => ICall.OkRun ks false (List.range xs.length)
  | _ => True

end UVec
end Verif
