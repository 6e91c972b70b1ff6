import Verif.Spec.Plain

/-!
# Programs that shrink

As `Spec/Plain`, with shrinking. The alignment of the vector may then fall to 1, so a zero-sized element that is aligned to more is not covered.
-/

namespace Verif
namespace UVec
variable {T : UTy} {β : Type}

/-- Calls that are covered in a program that is never concerned with an alignment above `hi`: those of `Plain`, and shrinking if
the sizes of all elements but the last are multiples of `hi`, and the bytes to be kept are a multiple of `hi` as well or exceed what there can be. -/
def PlainShrink (c : Cfg) (hi : Nat) (env : Env (Val T β)) (op : Op T β) (xs : List (Val T β)) : Prop :=
  match op with
  | .shrink q => IsAlign c (q.align c) ∧ (hi ∣ q.bytes c ∨ c.isizeMax ≤ q.bytes c) ∧ ∀ y ∈ xs.dropLast, hi ∣ y.size
  | op => Plain c 1 hi env op xs

end UVec
end Verif
