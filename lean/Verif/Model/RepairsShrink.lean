import Verif.Model.Repairs

/-!
# Changed shrinking

This is *not* code of `/repo`: `realign_down` (unaligned.rs:249–303) and the computation of the new byte capacity (unaligned.rs:500–512) with
the mistakes removed, to find out whether they are the whole cause of disagreements 7 and 8 of DESIGN.md.
-/

namespace Verif
namespace UVec
variable {T : UTy} {β : Type} [Inhabited β]

/-- The loop of `realign_down` (unaligned.rs:259–302) with only the sign of `old_start_offset` (281) changed, and the new end offsets
stored. The records are those behind the first one, `prevEnd` is the (new) end offset of the record before. -/
def realignDownSigned (c : Cfg) (oldAlign newAlign p : Nat) :
    (prevEnd : Nat) → List (Info T.Meta) → (shiftBack : Nat) → Heap β → Option (List (Info T.Meta) × Heap β)
  | _, [], _, h => some ([], h)
  | prevEnd, e :: es, shiftBack, h => do
    let newEnd ← VSU.uncheckedSub c e.endOff shiftBack
    let newStart ← VSU.uncheckedPadTo c prevEnd newAlign
    let oldStart ← VSU.uncheckedAdd c newStart shiftBack
    let size ← VSU.uncheckedSub c newEnd newStart
    let h' ← h.copy p oldStart newStart size
    let padOld ← VSU.uncheckedPadTo c newEnd oldAlign
    let padNew ← VSU.uncheckedPadTo c newEnd newAlign
    let diff ← VSU.uncheckedSub c padOld padNew
    let shiftBack' ← VSU.uncheckedAdd c shiftBack diff
    let (es', h'') ← realignDownSigned c oldAlign newAlign p newEnd es shiftBack' h'
    pure ({ e with endOff := newEnd } :: es', h'')

/-- The loop changed altogether: the old start is the old end of the element before, rounded up to the old alignment, the new start its
new end, rounded up to the new alignment, and the new end is stored. -/
def realignDownLoopRepaired (c : Cfg) (oldAlign newAlign p : Nat) :
    List (Info T.Meta) → (oldStart newStart : Nat) → Heap β → Option (List (Info T.Meta) × Heap β)
  | [], _, _, h => some ([], h)
  | e :: es, oldStart, newStart, h => do
    let size ← VSU.uncheckedSub c e.endOff oldStart
    let newEnd ← VSU.uncheckedAdd c newStart size
    let h' ← h.copy p oldStart newStart size
    let oldStart' ← VSU.uncheckedPadTo c e.endOff oldAlign
    let newStart' ← VSU.uncheckedPadTo c newEnd newAlign
    let (es', h'') ← realignDownLoopRepaired c oldAlign newAlign p es oldStart' newStart' h'
    pure ({ e with endOff := newEnd } :: es', h'')

/-- `realign_down` (unaligned.rs:249–303) with this loop. -/
def realignDownRepaired (c : Cfg) (newAlign : Nat) : Exec (UVec T β) Unit := do
  let v ← Exec.get
  Exec.debugAssert c.debug (v.len > 1 ∧ newAlign < v.align)
  let (es, h) ← Exec.orUb (realignDownLoopRepaired c v.align newAlign v.ptr v.elems 0 0 v.heap)
  Exec.modify (fun v => { v with elems := es, heap := h })

/-- The tail of `shrink_capacity_bytes_align_to` (unaligned.rs:497–582), changed: the byte capacity asked for is rounded up to the alignment
(500–512). -/
def shrinkCommitRepaired (c : Cfg) (env : Env (Val T β)) (minByteCap newAlign : Nat) (needRealign : Bool) : Exec (UVec T β) Unit := do
  let v ← Exec.get
  let newLen ← Exec.orUb (VSU.uncheckedPadTo c v.unalignedByteLen newAlign)
  let m ← Exec.orUb (VSU.newUnchecked c (min minByteCap v.byteCap))
  let m ← Exec.orUb (VSU.uncheckedPadTo c m newAlign)
  Exec.debugAssert c.debug (max m newLen ≤ v.byteCap)
  if max m newLen < v.byteCap ∨ newAlign < v.align then do
    let oldLayout ← Exec.orUb (layoutUnchecked c v.byteCap v.align)
    if max m newLen > 0 then do
      let go ← shrinkBlock c env oldLayout (max m newLen) newAlign needRealign
      if go then Exec.modify (fun v => { v with align := newAlign })
      else pure ()
    else do
      releaseAll oldLayout newAlign
      Exec.modify (fun v => { v with align := newAlign })
  else pure ()

/-- `shrink_capacity_bytes_align_to` (unaligned.rs:478–582) with both. -/
def shrinkToRepaired (c : Cfg) (env : Env (Val T β)) (minCap minByteCap minAlign : Nat) : Exec (UVec T β) Unit := do
  shrinkInfos env minCap
  let v ← Exec.get
  let maxAlign ← Exec.orUb (v.maxAlignOfElems c)
  let newAlign := max (min minAlign v.align) maxAlign
  Exec.debugAssert c.debug (newAlign ≤ v.align)
  if newAlign < v.align ∧ v.len > 1 then do
    realignDownRepaired c newAlign
    shrinkCommitRepaired c env minByteCap newAlign true
  else shrinkCommitRepaired c env minByteCap newAlign false

end UVec

/-- The dynamically aligned vector with these changes as well. -/
def unalignedShrinkingP {β : Type} [Inhabited β] (c : Cfg) (T : UTy) : Provider (UVec T β) T β :=
  { unalignedReservingP c T with shrinkTo := UVec.shrinkToRepaired c }

end Verif
