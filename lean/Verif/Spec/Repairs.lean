import Verif.Spec.History
import Verif.Model.Repairs

/-!
# Programs with the corrected functions

Not code of `/repo`: the machines of C36 (`Verif/Spec/History.lean`) with the functions of `Verif/Model/Repairs.lean` in place of those of the
repository.
-/

namespace Verif

/-- A machine in which three methods and the iterators have been replaced. -/
def Machine.replace {V : Type} {T : UTy} {β : Type} (M : Machine V T β) (ins : Nat → Val T β → Exec V Unit)
    (insWith : Env (Val T β) → Nat → Emplacer V T β) (rem : Env (Val T β) → Nat → Emplacable V T β)
    (calls : V → List ICall → Option (List (Option (Ref T)))) : Machine V T β :=
  { M with
    P := { M.P with insertUnchecked := ins, insertWithUnchecked := insWith, removeIntoUnchecked := rem }
    calls := calls }

section
variable {β : Type} [Inhabited β]

/-- The statically aligned vector with the changed `insert` and the changed iterators. -/
def alignedRepairedM (c : Cfg) (A : ATy) : Machine (AVec A β) A.ty β :=
  (alignedM c A).replace (AVec.insertRepaired c) (alignedM c A).P.insertWithUnchecked (alignedM c A).P.removeIntoUnchecked
    (fun v ks => (ICall.runCalls (ICall.alignedRepaired c v.heap) ks v.iter).map (·.1))

/-- The dynamically aligned vector with the changed `insert`, `insert_with`, `remove_into` and the changed iterators. -/
def unalignedRepairedM (c : Cfg) (T : UTy) : Machine (UVec T β) T β :=
  (unalignedM c T).replace (UVec.insertRepaired c) (UVec.insertWithRepaired c) (UVec.removeRepaired c)
    (fun v ks => (ICall.runCalls (ICall.unalignedRepaired c v.heap) ks v.iter).map (·.1))

/-- What is left of `AVec.Covered`: the result of `remove_into` must not be dropped if the destructor panics. -/
def AVec.CoveredRepaired {A : ATy} (env : Env (Val A.ty β)) (op : Op A.ty β) (xs : List (Val A.ty β)) : Prop :=
  ∀ i x, op = .remove i .drop → xs[i]? = some x → env.dropPanics x = false

/-- What is left of `UVec.Covered`: nothing about where the elements are when one is inserted, removed or visited. -/
def UVec.CoveredRepaired {T : UTy} (mult : Prop) (c : Cfg) (env : Env (Val T β)) (op : Op T β) (v : UVec T β) (xs : List (Val T β)) : Prop :=
  match op with
  | .push x | .insert _ x => v.ZstOk x.size x.align ∧ (¬ mult → x.align ≤ v.align → v.RoomOk xs x.size)
  | .pushWith (.value x) | .insertWith _ (.value x) => v.ZstOk x.size x.align
  | .pushWith (.fails md _) | .insertWith _ (.fails md _) => v.ZstOk (T.sizeOf md) (T.alignOf md)
  | .remove i d => d = .drop → ∀ x, xs[i]? = some x → env.dropPanics x = false
  | .reserve q | .tryReserve q => IsAlign c q.align
  | .shrink q => IsAlign c (q.align c) ∧ v.ShrinkOk xs (q.align c) ∧ (mult → v.CapOk xs (q.bytes c) (q.align c))
  | _ => True

end
end Verif
