import Verif.Spec.Iter
import Verif.Model.Unsize

/-!
# Corrected functions: not code of the repository

Each definition below is a function of the model with one expression changed. None of this is in `/repo`. `Props/Repairs.lean`
shows that with the change the property holds without a guard: the expression is the whole cause of the disagreement.
-/

namespace Verif

namespace UIter
variable {T : UTy} {β : Type} [Inhabited β]

/-- `nth` (unaligned.rs:1127–1158), changed: if no element is skipped, the next element starts where the iterator stands
(`start_offset`), not at 0 (1133). -/
def nthRepaired (c : Cfg) (h : Heap β) (it : UIter T) (n : Nat) : Option (Option (Ref T) × UIter T) := do
  let (skipped, infos') := match n with
    | 0 => (none, it.infos)
    | m + 1 => sliceNth it.infos m
  let start ← match skipped with
    | none => some it.startOff
    | some e => VSU.uncheckedPadTo c e.endOff it.align
  match infos' with
  | [] => pure (none, { it with infos := [] })
  | e :: rest =>
    let _size ← VSU.uncheckedSub c e.endOff start
    let r ← mkRef h it.ptr start e.rem
    let start' ← VSU.uncheckedPadTo c e.endOff it.align
    pure (some r, { it with infos := rest, startOff := start' })

/-- `next_back` (unaligned.rs:1171–1199), changed: the sole element left starts where the iterator stands, not at 0 (1181). -/
def nextBackRepaired (c : Cfg) (h : Heap β) (it : UIter T) : Option (Option (Ref T) × UIter T) :=
  match it.infos.getLast? with
  | none => some (none, it)
  | some e => do
    let rest := it.infos.dropLast
    let start ← match rest.getLast? with
      | none => some it.startOff
      | some p => VSU.uncheckedPadTo c p.endOff it.align
    let _size ← VSU.uncheckedSub c e.endOff start
    let r ← mkRef h it.ptr start e.rem
    pure (some r, { it with infos := rest })

end UIter

namespace AIter
variable {A : ATy} {β : Type} [Inhabited β]

/-- `nth` (aligned.rs:732–759), changed in the same place (737). -/
def nthRepaired (c : Cfg) (h : Heap β) (it : AIter A) (n : Nat) : Option (Option (Ref A.ty) × AIter A) := do
  let (skipped, infos') := match n with
    | 0 => (none, it.infos)
    | m + 1 => UIter.sliceNth it.infos m
  let start := match skipped with
    | none => it.startOff
    | some e => e.endOff
  match infos' with
  | [] => pure (none, { it with infos := [] })
  | e :: rest =>
    let size ← VS.uncheckedSub c A.ALIGN e.endOff start
    let r ← mkRef h it.ptr start (A.dec e.rem size)
    pure (some r, { it with infos := rest, startOff := e.endOff })

/-- `next_back` (aligned.rs:769–794), changed in the same place (778). -/
def nextBackRepaired (c : Cfg) (h : Heap β) (it : AIter A) : Option (Option (Ref A.ty) × AIter A) :=
  match it.infos.getLast? with
  | none => some (none, it)
  | some e => do
    let rest := it.infos.dropLast
    let start := match rest.getLast? with
      | none => it.startOff
      | some p => p.endOff
    let size ← VS.uncheckedSub c A.ALIGN e.endOff start
    let r ← mkRef h it.ptr start (A.dec e.rem size)
    pure (some r, { it with infos := rest })

end AIter

/-- One call of the changed iterator, dynamically aligned elements. -/
def ICall.unalignedRepaired {T : UTy} {β : Type} [Inhabited β] (c : Cfg) (h : Heap β) :
    ICall → UIter T → Option (Option (Ref T) × UIter T)
  | .next, it => it.next c h
  | .nextBack, it => it.nextBackRepaired c h
  | .nth n, it => it.nthRepaired c h n
  | .nthBack n, it => UIter.nthBackOf (UIter.nextBackRepaired c h) n it

/-- One call of the changed iterator, statically aligned elements. -/
def ICall.alignedRepaired {A : ATy} {β : Type} [Inhabited β] (c : Cfg) (h : Heap β) :
    ICall → AIter A → Option (Option (Ref A.ty) × AIter A)
  | .next, it => it.next c h
  | .nextBack, it => it.nextBackRepaired c h
  | .nth n, it => it.nthRepaired c h n
  | .nthBack n, it => UIter.nthBackOf (AIter.nextBackRepaired c h) n it

/-- `insert_unchecked` (aligned.rs:242–279), changed: the pointer is advanced by `start_offset`, not by `index` (254). -/
def AVec.insertRepaired {A : ATy} {β : Type} [Inhabited β] (c : Cfg) (index : Nat) (x : Val A.ty β) : Exec (AVec A β) Unit := do
  let v ← Exec.get
  let size ← Exec.orUb (VS.newUnchecked c A.ALIGN x.size)
  Exec.debugAssert c.debug (v.elemsCap > v.len)
  Exec.debugAssert c.debug (v.byteCap ≥ v.byteLen + size)
  let start ← Exec.orUb (v.startOffset index)
  let toMove ← Exec.orUb (VS.uncheckedSub c A.ALIGN v.byteLen start)
  Exec.require (v.heap.addOk v.ptr start ∧ v.heap.addOk v.ptr (start + size))
  memmove v.ptr start (start + size) toMove
  memwrite v.ptr start x.bytes
  adjustFrom index (bumpInfos c A.ALIGN size)
  let e ← Exec.orUb (VS.uncheckedAdd c A.ALIGN start size)
  infoInsert index ⟨A.enc x.md, e⟩

/-- `insert_unchecked` (unaligned.rs:584–638), with two changes: the pointer is advanced by `start_offset`, not by `index`
(609), and the number of bytes to move is 0 if the new element comes last (`saturating_sub` instead of `unchecked_sub`,
607). -/
def UVec.insertRepaired {T : UTy} {β : Type} [Inhabited β] (c : Cfg) (index : Nat) (x : Val T β) : Exec (UVec T β) Unit := do
  let v ← Exec.get
  Exec.debugAssert c.debug (index ≤ v.len)
  Exec.debugAssert c.debug (v.elemsCap > v.len)
  let alignedSize ← Exec.orUb (VSU.uncheckedPadTo c x.size v.align)
  let alen ← Exec.orUb (v.alignedByteLen c)
  Exec.debugAssert c.debug (v.byteCap ≥ alen + alignedSize)
  Exec.debugAssert c.debug (v.align ≥ x.align)
  let start ← Exec.orUb (v.startOffset c index)
  let toMove := v.unalignedByteLen - start
  Exec.require (v.heap.addOk v.ptr start ∧ v.heap.addOk v.ptr (start + alignedSize))
  memmove v.ptr start (start + alignedSize) toMove
  memwrite v.ptr start x.bytes
  adjustFrom index (bumpInfos c alignedSize)
  let e ← Exec.orUb (VSU.uncheckedAdd c start x.size)
  infoInsert index ⟨x.md, e⟩

/-- The emplacer closure of `insert_with_unchecked` (unaligned.rs:640–746), changed: `saturating_sub` instead of `unchecked_sub`
for the number of bytes to shift (697). -/
def UVec.insertWithRepaired {T : UTy} {β : Type} [Inhabited β] (c : Cfg) (env : Env (Val T β)) (index : Nat) : Emplacer (UVec T β) T β :=
  fun layout md => do
  let size ← Exec.orUb (VSU.newUnchecked c layout.size)
  reserveForEmplace c env layout
  let v ← Exec.get
  let alignedSize ← Exec.orUb (VSU.uncheckedPadTo c size v.align)
  let start ← Exec.orUb (v.startOffset c index)
  Exec.require (v.heap.addOk v.ptr start)
  let toShift := v.unalignedByteLen - start
  Exec.require (v.heap.addOk v.ptr (start + alignedSize))
  memmove v.ptr start (start + alignedSize) toShift
  pure (.place
    (fun bs => do
      Exec.require (bs.length ≤ layout.size)
      memwrite v.ptr start bs)
    (do
      adjustFrom index (bumpInfos c alignedSize)
      let e ← Exec.orUb (VSU.uncheckedAdd c start size)
      infoInsert index ⟨md, e⟩)
    (memmove v.ptr (start + alignedSize) start toShift))

/-- `remove_into_unchecked` (unaligned.rs:748–843), changed in the same way (833). -/
def UVec.removeRepaired {T : UTy} {β : Type} [Inhabited β] (c : Cfg) (env : Env (Val T β)) (index : Nat) :
    Exec (UVec T β) (Started (UVec T β) T β) := do
  let v ← Exec.get
  Exec.debugAssert c.debug (index < v.len)
  let info ← Exec.orUb v.elems[index]?
  let start ← Exec.orUb (v.startOffset c index)
  let size ← Exec.orUb (VSU.uncheckedSub c info.endOff start)
  let alignedSize ← Exec.orUb (VSU.uncheckedPadTo c size v.align)
  Exec.require (v.heap.addOk v.ptr start)
  let r ← Exec.orUb (mkRef v.heap v.ptr start info.rem)
  let layout ← Exec.orUb (layoutUnchecked c size (T.alignOf r.md))
  pure
    { layout := layout
      md := info.rem
      write := copyOut v.ptr start size
      dropVal := dropInPlace env v.ptr start info.rem
      finish := do
        -- `Vec::remove` panics if out of range
        let v ← Exec.get
        Exec.assert (index < v.elems.length)
        Exec.set { v with elems := v.elems.eraseIdx index }
        adjustFrom index (unbumpInfos c alignedSize)
        let v ← Exec.get
        let toMove := v.unalignedByteLen - start
        Exec.require (v.heap.addOk v.ptr (start + alignedSize))
        memmove v.ptr (start + alignedSize) start toMove }

/-- The tail of `try_reserve_additional_bytes_align` (unaligned.rs:432–475), changed: `self.align` is set also if there is no memory
(472). -/
def UVec.reserveCommitRepaired {T : UTy} {β : Type} [Inhabited β] (c : Cfg) (env : Env (Val T β)) (additionalBytes newAlign cost : Nat) :
    Exec (UVec T β) (Except TRE Unit) := do
  let v ← Exec.get
  let oldAlign := v.align
  let oldCap := v.byteCap
  match ← Exec.orUb (newByteCap c oldCap cost additionalBytes newAlign) with
  | none => pure (.error .capacityOverflow)
  | some newCap =>
    if oldAlign < newAlign ∨ oldCap < newCap then
      if newCap > 0 then do
        let newLayout ← Exec.orUb (layoutUnchecked c newCap newAlign)
        match ← Exec.orUb (v.growStorage c env newLayout) with
        | none => pure (.error .allocError)
        | some (h, addr, granted) => do
          let cap' ← Exec.orUb (VSU.newSquishedTo c granted newAlign)
          Exec.modify (fun v => { v with byteCap := cap', ptr := addr, heap := h })
          if oldAlign < newAlign then do
            if v.len > 1 then realignUp c newAlign
            Exec.modify (fun v => { v with align := newAlign })
          pure (.ok ())
      else do
        Exec.modify (fun v => { v with ptr := newAlign, align := newAlign })
        pure (.ok ())
    else pure (.ok ())

/-- `try_reserve_additional_bytes_align` (unaligned.rs:400–476) with this tail. -/
def UVec.tryReserveAdditionalRepaired {T : UTy} {β : Type} [Inhabited β] (c : Cfg) (env : Env (Val T β)) (additionalBytes align : Nat) :
    Exec (UVec T β) (Except TRE Unit) := do
  let v ← Exec.get
  let oldAlign := v.align
  let newAlign := max oldAlign align
  let oldLen ← Exec.orUb (v.alignedByteLen c)
  if oldAlign < newAlign then do
    Exec.debugAssert c.debug (v.align ≤ newAlign)
    match ← Exec.orUb (v.lenAfterRealignUp c newAlign) with
    | none => pure (.error .capacityOverflow)
    | some realigned => do
      let cost ← Exec.orUb (VSU.uncheckedSub c realigned oldLen)
      UVec.reserveCommitRepaired c env additionalBytes newAlign cost
  else if additionalBytes = 0 then pure (.ok ())
  else do
    let cost ← Exec.orUb (VSU.uncheckedSub c oldLen oldLen)
    UVec.reserveCommitRepaired c env additionalBytes newAlign cost

/-- The statically aligned vector with the changed `insert`. -/
def alignedRepairedP {β : Type} [Inhabited β] (c : Cfg) (A : ATy) : Provider (AVec A β) A.ty β :=
  { alignedP c A with insertUnchecked := AVec.insertRepaired c }

/-- The dynamically aligned vector with the changed `insert`, `insert_with` and `remove_into`. -/
def unalignedRepairedP {β : Type} [Inhabited β] (c : Cfg) (T : UTy) : Provider (UVec T β) T β :=
  { unalignedP c T with
    insertUnchecked := UVec.insertRepaired c
    insertWithUnchecked := UVec.insertWithRepaired c
    removeIntoUnchecked := UVec.removeRepaired c }

/-- The dynamically aligned vector with the changed reservation as well, as far as `push`, `insert` and the reservations are
concerned. (`push_with` and `insert_with` call the unchanged one.) -/
def unalignedReservingP {β : Type} [Inhabited β] (c : Cfg) (T : UTy) : Provider (UVec T β) T β :=
  { unalignedRepairedP c T with tryReserveAdditionalBytesAlign := UVec.tryReserveAdditionalRepaired c }

/-- `from_sized` (unaligned.rs:1030–1069), changed: the end offset of element `index` is `(index + 1) * size_of::<S>()`
(1055). -/
def UVec.fromSizedRepaired {T : UTy} {β : Type} [Inhabited β] (c : Cfg) (r : RawVec β) (md : T.Meta) : Option (UVec T β) := do
  let bc ← uncheckedMul c r.cap r.elemSize
  let bc ← VSU.newUnchecked c bc
  let es ← (List.range r.len).mapM (fun index => do
    let m ← uncheckedMul c (index + 1) r.elemSize
    let o ← VSU.newUnchecked c m
    pure (⟨md, o⟩ : Info T.Meta))
  pure ⟨r.ptr, bc, es, r.len, r.elemAlign, r.heap, []⟩

/-- `from_sized` (aligned.rs:639–677), changed in the same place (664). -/
def AVec.fromSizedRepaired {A : ATy} {β : Type} [Inhabited β] (c : Cfg) (r : RawVec β) (md : A.ty.Meta) : Option (AVec A β) := do
  let bc ← uncheckedMul c r.cap r.elemSize
  let bc ← VS.newUnchecked c A.ALIGN bc
  let es ← (List.range r.len).mapM (fun index => do
    let m ← uncheckedMul c (index + 1) r.elemSize
    let o ← VS.newUnchecked c A.ALIGN m
    pure (⟨A.enc md, o⟩ : Info A.R))
  pure ⟨r.ptr, bc, es, r.len, r.heap, []⟩

end Verif
