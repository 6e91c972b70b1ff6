import Verif.Model.RepairsShrink

/-!
# All changes together

This is *not* code of `/repo`: `push_with` and `insert_with` of dynamically aligned vectors with the changed reservation as well.
-/

namespace Verif
namespace UVec
variable {T : UTy} {β : Type} [Inhabited β]

/-- The reservation of both emplacers (unaligned.rs:676–682 and 882–885), with the changed reservation. -/
def reserveForEmplaceRepaired (c : Cfg) (env : Env (Val T β)) (l : Layout) : Exec (UVec T β) Unit := do
  match ← tryReserve c env 1 with
  | .error e => unwrapReserve (.error e)
  | .ok () => do
    let r ← tryReserveAdditionalRepaired c env l.size l.align
    unwrapReserve r

/-- The emplacer closure of `push_with` (unaligned.rs:878–904) with it. -/
def pushWithRepaired (c : Cfg) (env : Env (Val T β)) : Emplacer (UVec T β) T β := fun layout md => do
  let size ← Exec.orUb (VSU.newUnchecked c layout.size)
  reserveForEmplaceRepaired c env layout
  let v ← Exec.get
  let start ← Exec.orUb (v.alignedByteLen c)
  Exec.require (v.heap.addOk v.ptr start)
  pure (.place
    (fun bs => do
      Exec.require (bs.length ≤ layout.size)
      memwrite v.ptr start bs)
    (do
      let e ← Exec.orUb (VSU.uncheckedAdd c start size)
      infoPush ⟨md, e⟩)
    (pure ()))

/-- The emplacer closure of `insert_with_unchecked` (unaligned.rs:640–746) with it, and with the number of bytes to shift changed as in
`insertWithRepaired`. -/
def insertWithAllRepaired (c : Cfg) (env : Env (Val T β)) (index : Nat) : Emplacer (UVec T β) T β := fun layout md => do
  let size ← Exec.orUb (VSU.newUnchecked c layout.size)
  reserveForEmplaceRepaired c env layout
  let v ← Exec.get
  let alignedSize ← Exec.orUb (VSU.uncheckedPadTo c size v.align)
  let start ← Exec.orUb (v.startOffset c index)
  Exec.require (v.heap.addOk v.ptr start)
  let toShift := v.unalignedByteLen - start
  Exec.require (v.heap.addOk v.ptr (start + alignedSize))
  memmove v.ptr start (start + alignedSize) toShift
  pure (.place
    (fun bs => do
      Exec.require (bs.length ≤ layout.size)
      memwrite v.ptr start bs)
    (do
      adjustFrom index (bumpInfos c alignedSize)
      let e ← Exec.orUb (VSU.uncheckedAdd c start size)
      infoInsert index ⟨md, e⟩)
    (memmove v.ptr (start + alignedSize) start toShift))

end UVec

/-- The dynamically aligned vector with all changes. -/
def unalignedAllP {β : Type} [Inhabited β] (c : Cfg) (T : UTy) : Provider (UVec T β) T β :=
  { unalignedShrinkingP c T with
    pushWith := UVec.pushWithRepaired c
    insertWithUnchecked := UVec.insertWithAllRepaired c }

end Verif
