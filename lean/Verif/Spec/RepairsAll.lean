import Verif.Spec.Repairs
import Verif.Model.RepairsAll

/-!
# Programs with all changes

Not code of `/repo`: the machine of C36 with the functions of `Verif/Model/RepairsAll.lean`.
-/

namespace Verif
variable {β : Type} [Inhabited β]

/-- The dynamically aligned vector with all changed functions and the changed iterators. -/
def unalignedAllM (c : Cfg) (T : UTy) : Machine (UVec T β) T β :=
  { unalignedRepairedM c T with P := unalignedAllP c T }

/-- What is left of `UVec.Covered`: the alignments asked for are alignments, and the result of `remove_into` is not dropped if the destructor
panics. -/
def UVec.CoveredAll {T : UTy} (c : Cfg) (env : Env (Val T β)) (op : Op T β) (xs : List (Val T β)) : Prop :=
  match op with
  | .remove i d => d = .drop → ∀ x, xs[i]? = some x → env.dropPanics x = false
  | .reserve q | .tryReserve q => IsAlign c q.align
  | .shrink q => IsAlign c (q.align c)
  | _ => True

end Verif
