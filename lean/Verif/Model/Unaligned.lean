import Verif.Model.Protocol

/-!
# The implementation for dynamically aligned elements

Transcription of `src/inner/unaligned.rs` (all line numbers in this file refer to it unless said otherwise).
`T` here never implements `MetadataFromSize`, so the metadata remainder is the full metadata
(helper.rs:42–52, 66–68).
-/

namespace Verif

/-- `UnalignedVecInner<T>` (48–57), together with the memory it owns and the log of destructor runs. -/
structure UVec (T : UTy) (β : Type) where
  ptr : Nat
  byteCap : Nat
  /-- contents of `elems_info` -/
  elems : List (Info T.Meta)
  /-- `elems_info.capacity()` -/
  elemsCap : Nat
  align : Nat
  heap : Heap β
  /-- ghost: values whose destructor has been run, in order -/
  drops : List (Val T β)

namespace UVec

variable {T : UTy} {β : Type} [Inhabited β]

/-- `NEW_ALIGN_1` (359–365) -/
def newAlign1 : UVec T β := ⟨1, 0, [], 0, 1, Heap.empty, []⟩

/-- `NEW_ALIGN_PTR` (367–373) -/
def newAlignPtr (c : Cfg) : UVec T β := ⟨c.usizeAlign, 0, [], 0, c.usizeAlign, Heap.empty, []⟩

/-- `len` (975–977) -/
def len (v : UVec T β) : Nat := v.elems.length

/-- `unaligned_byte_len` (63–67) -/
def unalignedByteLen (v : UVec T β) : Nat := lastEnd v.elems

/-- `aligned_byte_len` (72–75) -/
def alignedByteLen (c : Cfg) (v : UVec T β) : Option Nat :=
  VSU.uncheckedPadTo c v.unalignedByteLen v.align

/-- `start_offset_of_unchecked` (83–94) -/
def startOffset (c : Cfg) (v : UVec T β) (index : Nat) : Option Nat :=
  match index with
  | 0 => some 0
  | j + 1 =>
    match v.elems[j]? with
    | some e => VSU.uncheckedPadTo c e.endOff v.align
    | none => none

/-! ## Iterators (1076–1214) -/

end UVec

/-- `UnalignedIter` / `UnalignedIterMut` (1078–1083); the underlying slice iterator is the list of records left. -/
structure UIter (T : UTy) where
  infos : List (Info T.Meta)
  ptr : Nat
  startOff : Nat
  align : Nat

namespace UIter
variable {T : UTy} {β : Type} [Inhabited β]

/-- `next` (1089–1111) -/
def next (c : Cfg) (h : Heap β) (it : UIter T) : Option (Option (Ref T) × UIter T) :=
  match it.infos with
  | [] => some (none, it)
  | e :: rest => do
    let _size ← VSU.uncheckedSub c e.endOff it.startOff
    let r ← mkRef h it.ptr it.startOff e.rem
    let start' ← VSU.uncheckedPadTo c e.endOff it.align
    pure (some r, { it with infos := rest, startOff := start' })

/-- `slice::Iter::nth(n)`: skip `n` records and take the next. -/
def sliceNth {R : Type} (l : List (Info R)) (n : Nat) : Option (Info R) × List (Info R) :=
  match l.drop n with
  | [] => (none, [])
  | e :: rest => (some e, rest)

/-- `nth` (1127–1158) -/
def nth (c : Cfg) (h : Heap β) (it : UIter T) (n : Nat) : Option (Option (Ref T) × UIter T) := do
  let (skipped, infos') := match n with
    | 0 => (none, it.infos)
    | m + 1 => sliceNth it.infos m
  let start ← match skipped with
    | none => some 0
    | some e => VSU.uncheckedPadTo c e.endOff it.align
  match infos' with
  | [] => pure (none, { it with infos := [] })
  | e :: rest =>
    let _size ← VSU.uncheckedSub c e.endOff start
    let r ← mkRef h it.ptr start e.rem
    let start' ← VSU.uncheckedPadTo c e.endOff it.align
    pure (some r, { it with infos := rest, startOff := start' })

/-- `last` (1161–1166) -/
def last (c : Cfg) (h : Heap β) (it : UIter T) : Option (Option (Ref T)) :=
  match it.infos.length with
  | 0 => some none
  | n + 1 => (it.nth c h n).map (·.1)

/-- `next_back` (1171–1199) -/
def nextBack (c : Cfg) (h : Heap β) (it : UIter T) : Option (Option (Ref T) × UIter T) :=
  match it.infos.getLast? with
  | none => some (none, it)
  | some e => do
    let rest := it.infos.dropLast
    let start ← match rest.getLast? with
      | none => some 0
      | some p => VSU.uncheckedPadTo c p.endOff it.align
    let _size ← VSU.uncheckedSub c e.endOff start
    let r ← mkRef h it.ptr start e.rem
    pure (some r, { it with infos := rest })

/-- `nth_back` (`src/lib.rs` 1352–1354), which no iterator of the crate overrides: the provided method of `DoubleEndedIterator`
in `core`, `advance_back_by(n)` (call `next_back` `n` times, stop at the first `None`) and then `next_back`. -/
def nthBackOf {I R : Type} (back : I → Option (Option R × I)) : Nat → I → Option (Option R × I)
  | 0, it => back it
  | n + 1, it => do
    let (r, it') ← back it
    match r with
    | none => pure (none, it')
    | some _ => nthBackOf back n it'

/-- `nth_back`: `UnalignedIter` has no method of its own (1168–1200). -/
def nthBack (c : Cfg) (h : Heap β) (it : UIter T) (n : Nat) : Option (Option (Ref T) × UIter T) :=
  nthBackOf (nextBack c h) n it

/-- `len` / `size_hint` / `count` (1114–1124, 1202–1207) -/
def len (it : UIter T) : Nat := it.infos.length

/-- `n` calls of `next`, keeping the references. -/
def take (c : Cfg) (h : Heap β) : Nat → UIter T → Option (List (Ref T) × UIter T)
  | 0, it => some ([], it)
  | n + 1, it => do
    let (r, it') ← it.next c h
    let (rs, it'') ← take c h n it'
    match r with
    | none => pure (rs, it'')
    | some r => pure (r :: rs, it'')

end UIter

namespace UVec
variable {T : UTy} {β : Type} [Inhabited β]

/-- `iter` / `iter_mut` (1010–1027) -/
def iter (v : UVec T β) : UIter T := ⟨v.elems, v.ptr, 0, v.align⟩

/-- `max_align_of_elems` (99–104): the maximum over a complete iteration, or 1. -/
def maxAlignOfElems (c : Cfg) (v : UVec T β) : Option Nat := do
  let (rs, _) ← v.iter.take c v.heap v.len
  match rs.map (fun r => T.alignOf r.md) with
  | [] => pure 1
  | a :: as => pure (as.foldl max a)

/-! ## Realignment -/

/-- The fold of `len_after_realign_up` (116–135): `shift` is the accumulator, `last` the captured variable
`new_pad_to_new`. Outer `none` = UB, inner `none` = the `?` exits. -/
def lenAfterRealignUpGo (c : Cfg) (oldAlign newAlign : Nat) :
    List (Info T.Meta) → (shift last : Nat) → Option (Option Nat)
  | [], _, last => some (some last)
  | e :: es, shift, _ =>
    match VSU.checkedAdd c e.endOff shift with
    | none => some none
    | some newEnd => do
      match ← VSU.checkedPadTo c newEnd newAlign with
      | none => pure none
      | some padNew =>
        let padOld ← VSU.uncheckedPadTo c newEnd oldAlign
        let diff ← VSU.uncheckedSub c padNew padOld
        match VSU.checkedAdd c shift diff with
        | none => pure none
        | some shift' => lenAfterRealignUpGo c oldAlign newAlign es shift' padNew

/-- `len_after_realign_up` (113–138) -/
def lenAfterRealignUp (c : Cfg) (v : UVec T β) (newAlign : Nat) : Option (Option Nat) :=
  lenAfterRealignUpGo c v.align newAlign v.elems 0 0

/-- First pass of `realign_up` (173–188): new end offsets and the final shift. -/
def realignUpOffsets (c : Cfg) (oldAlign newAlign : Nat) :
    List (Info T.Meta) → (shift : Nat) → Option (List (Info T.Meta) × Nat)
  | [], shift => some ([], shift)
  | e :: es, shift => do
    let newEnd ← VSU.uncheckedAdd c e.endOff shift
    let padNew ← VSU.uncheckedPadTo c newEnd newAlign
    let padOld ← VSU.uncheckedPadTo c newEnd oldAlign
    let diff ← VSU.uncheckedSub c padNew padOld
    let shift' ← VSU.uncheckedAdd c shift diff
    let (es', fin) ← realignUpOffsets c oldAlign newAlign es shift'
    pure ({ e with endOff := newEnd } :: es', fin)

/-- `array_windows::<2>()` -/
def windows {R : Type} (l : List (Info R)) : List (Info R × Info R) := l.zip l.tail

/-- Second pass of `realign_up` (191–228): the windows from right to left, moving one element each. -/
def realignUpMove (c : Cfg) (oldAlign newAlign p : Nat) :
    List (Info T.Meta × Info T.Meta) → (shiftEnd : Nat) → Heap β → Option (Heap β)
  | [], _, h => some h
  | (prev, cur) :: ws, shiftEnd, h => do
    let padNew ← VSU.uncheckedPadTo c cur.endOff newAlign
    let padOld ← VSU.uncheckedPadTo c cur.endOff oldAlign
    let diff ← VSU.uncheckedSub c padNew padOld
    let shiftStart ← VSU.uncheckedSub c shiftEnd diff
    let newStart ← VSU.uncheckedPadTo c prev.endOff newAlign
    let oldStart ← VSU.uncheckedSub c newStart shiftStart
    let size ← VSU.uncheckedSub c cur.endOff newStart
    let h' ← h.copy p oldStart newStart size
    realignUpMove c oldAlign newAlign p ws shiftStart h'

/-- `realign_up` (155–229) -/
def realignUp (c : Cfg) (newAlign : Nat) : Exec (UVec T β) Unit := do
  let v ← Exec.get
  Exec.debugAssert c.debug (v.len > 1 ∧ newAlign > v.align)
  let (es, fin) ← Exec.orUb (realignUpOffsets c v.align newAlign v.elems 0)
  let h ← Exec.orUb (realignUpMove c v.align newAlign v.ptr (windows es).reverse fin v.heap)
  Exec.modify (fun v => { v with elems := es, heap := h })

/-- The loop of `realign_down` (259–302). The end offsets are only read. -/
def realignDownMove (c : Cfg) (oldAlign newAlign p : Nat) :
    List (Info T.Meta × Info T.Meta) → (shiftBack : Nat) → Heap β → Option (Heap β)
  | [], _, h => some h
  | (prev, cur) :: ws, shiftBack, h => do
    let newEnd ← VSU.uncheckedSub c cur.endOff shiftBack
    let newStart ← VSU.uncheckedPadTo c prev.endOff newAlign
    let oldStart ← VSU.uncheckedSub c newStart shiftBack
    let size ← VSU.uncheckedSub c newEnd newStart
    let h' ← h.copy p oldStart newStart size
    let padOld ← VSU.uncheckedPadTo c newEnd oldAlign
    let padNew ← VSU.uncheckedPadTo c newEnd newAlign
    let diff ← VSU.uncheckedSub c padOld padNew
    let shiftBack' ← VSU.uncheckedAdd c shiftBack diff
    realignDownMove c oldAlign newAlign p ws shiftBack' h'

/-- `realign_down` (249–303) -/
def realignDown (c : Cfg) (newAlign : Nat) : Exec (UVec T β) Unit := do
  let v ← Exec.get
  Exec.debugAssert c.debug (v.len > 1 ∧ newAlign < v.align)
  let h ← Exec.orUb (realignDownMove c v.align newAlign v.ptr (windows v.elems) 0 v.heap)
  Exec.modify (fun v => { v with heap := h })

/-! ## Drop (306–344) -/

/-- `wide_ptr.drop_in_place()`: the value is read (UB if the place is invalid or misaligned), its destructor
runs, and may panic. -/
def dropInPlace (env : Env (Val T β)) (p off : Nat) (md : T.Meta) : Exec (UVec T β) Unit := do
  let v ← Exec.get
  let r ← Exec.orUb (mkRef v.heap p off md)
  let x := r.read v.heap
  Exec.modify (fun v => { v with drops := v.drops ++ [x] })
  if env.dropPanics x then Exec.panic else pure ()

/-- The loop of `drop` (314–332). -/
def dropLoop (c : Cfg) (env : Env (Val T β)) (p align : Nat) :
    List (Info T.Meta) → (start : Nat) → Exec (UVec T β) Unit
  | [], _ => pure ()
  | e :: es, start => do
    let _size ← Exec.orUb (VSU.uncheckedSub c e.endOff start)
    let v ← Exec.get
    Exec.require (v.heap.addOk p start)
    let start' ← Exec.orUb (VSU.uncheckedPadTo c e.endOff align)
    dropInPlace env p start e.rem
    dropLoop c env p align es start'

/-- `drop` (307–343) -/
def drop (c : Cfg) (env : Env (Val T β)) : Exec (UVec T β) Unit := do
  let v ← Exec.get
  -- `ManuallyDrop::take`
  Exec.modify (fun v => { v with elems := [], elemsCap := 0 })
  dropLoop c env v.ptr v.align v.elems 0
  let l ← Exec.orUb (layoutUnchecked c v.byteCap v.align)
  let v ← Exec.get
  let h ← Exec.orUb (v.heap.deallocate v.ptr l)
  Exec.modify (fun v => { v with heap := h })

/-! ## Capacity -/

/-- `try_reserve` / `try_reserve_exact` (391–398): reserve element-info records only. -/
def tryReserve (c : Cfg) (env : Env (Val T β)) (additional : Nat) : Exec (UVec T β) (Except TRE Unit) := do
  let v ← Exec.get
  match stdReserve c.infoMax v.elemsCap v.len additional env.infoGrow with
  | .error e => pure (.error e)
  | .ok cap => do
    Exec.set { v with elemsCap := cap }
    pure (.ok ())

/-- The new byte capacity (434–437): the old one plus the cost of realignment, plus the request, both rounded up.
Outer `none` = UB, inner `none` = `CapacityOverflow`. -/
def newByteCap (c : Cfg) (oldCap cost additionalBytes newAlign : Nat) : Option (Option Nat) := do
  match ← VSU.checkedAddPad c oldCap cost newAlign with
  | none => pure none
  | some s => VSU.checkedAddPad c s additionalBytes newAlign

/-- Obtain the new memory block (446–459): `allocate` for a vector without memory, `grow` otherwise. -/
def growStorage (c : Cfg) (env : Env (Val T β)) (v : UVec T β) (newLayout : Layout) :
    Option (Option (Heap β × Nat × Nat)) :=
  if v.byteCap = 0 then some (v.heap.allocate env newLayout)
  else do
    let oldLayout ← layoutUnchecked c v.byteCap v.align
    v.heap.grow env v.ptr oldLayout newLayout

/-- The tail of `try_reserve_additional_bytes_align` (432–475), once the cost of realignment is known. -/
def reserveCommit (c : Cfg) (env : Env (Val T β)) (additionalBytes newAlign cost : Nat) :
    Exec (UVec T β) (Except TRE Unit) := do
  let v ← Exec.get
  let oldAlign := v.align
  let oldCap := v.byteCap
  match ← Exec.orUb (newByteCap c oldCap cost additionalBytes newAlign) with
  | none => pure (.error .capacityOverflow)
  | some newCap =>
    if oldAlign < newAlign ∨ oldCap < newCap then
      if newCap > 0 then do
        let newLayout ← Exec.orUb (layoutUnchecked c newCap newAlign)
        match ← Exec.orUb (v.growStorage c env newLayout) with
        | none => pure (.error .allocError)
        | some (h, addr, granted) => do
          let cap' ← Exec.orUb (VSU.newSquishedTo c granted newAlign)
          Exec.modify (fun v => { v with byteCap := cap', ptr := addr, heap := h })
          if oldAlign < newAlign then do
            if v.len > 1 then realignUp c newAlign
            Exec.modify (fun v => { v with align := newAlign })
          pure (.ok ())
      else do
        Exec.modify (fun v => { v with ptr := newAlign })
        pure (.ok ())
    else pure (.ok ())

/-- `try_reserve_additional_bytes_align` (400–476) -/
def tryReserveAdditionalBytesAlign (c : Cfg) (env : Env (Val T β)) (additionalBytes align : Nat) :
    Exec (UVec T β) (Except TRE Unit) := do
  let v ← Exec.get
  let oldAlign := v.align
  let newAlign := max oldAlign align
  let oldLen ← Exec.orUb (v.alignedByteLen c)
  if oldAlign < newAlign then do
    Exec.debugAssert c.debug (v.align ≤ newAlign)
    match ← Exec.orUb (v.lenAfterRealignUp c newAlign) with
    | none => pure (.error .capacityOverflow)
    | some realigned => do
      let cost ← Exec.orUb (VSU.uncheckedSub c realigned oldLen)
      reserveCommit c env additionalBytes newAlign cost
  else if additionalBytes = 0 then pure (.ok ())
  else do
    let cost ← Exec.orUb (VSU.uncheckedSub c oldLen oldLen)
    reserveCommit c env additionalBytes newAlign cost

/-- The drop guard `Realigner` (528–545): realign to the old alignment again. -/
def realigner (c : Cfg) (newAlign : Nat) : Exec (UVec T β) Unit := do
  let v ← Exec.get
  let oldAlign := v.align
  Exec.modify (fun v => { v with align := newAlign })
  realignUp c oldAlign
  Exec.modify (fun v => { v with align := oldAlign })

/-- `elems_info.shrink_to(min_capacity)` (484); an allocation failure aborts. -/
def shrinkInfos (env : Env (Val T β)) (minCap : Nat) : Exec (UVec T β) Unit := do
  let v ← Exec.get
  if stdShrinkTo v.elemsCap v.len minCap < v.elemsCap ∧ env.infoShrink = false then Exec.abort
  else Exec.set { v with elemsCap := stdShrinkTo v.elemsCap v.len minCap }

/-- Give all memory back (569–578). -/
def releaseAll (oldLayout : Layout) (newAlign : Nat) : Exec (UVec T β) Unit := do
  let v ← Exec.get
  if v.byteCap > 0 then do
    let h ← Exec.orUb (v.heap.deallocate v.ptr oldLayout)
    Exec.set { v with heap := h, byteCap := 0, ptr := newAlign }
  else Exec.set { v with ptr := newAlign }

/-- Ask the allocator for a smaller block (520–568); the drop guard undoes the realignment on failure. The result
tells whether the function goes on (`false`: early return at 562). -/
def shrinkBlock (c : Cfg) (env : Env (Val T β)) (oldLayout : Layout) (newByteCap newAlign : Nat) (needRealign : Bool) :
    Exec (UVec T β) Bool := do
  let newLayout ← Exec.orUb (layoutUnchecked c newByteCap newAlign)
  let v ← Exec.get
  match ← Exec.orUb (v.heap.shrink env v.ptr oldLayout newLayout) with
  | none =>
    if needRealign then do
      realigner c newAlign
      pure false
    else pure false
  | some (h, addr, granted) => do
    let cap ← Exec.orUb (VSU.newSquishedTo c granted newAlign)
    Exec.set { v with byteCap := cap, ptr := addr, heap := h }
    pure true

/-- The tail of `shrink_capacity_bytes_align_to` (497–582), once the elements are realigned. -/
def shrinkCommit (c : Cfg) (env : Env (Val T β)) (minByteCap newAlign : Nat) (needRealign : Bool) : Exec (UVec T β) Unit := do
  let v ← Exec.get
  let newLen ← Exec.orUb (VSU.uncheckedPadTo c v.unalignedByteLen newAlign)
  let m ← Exec.orUb (VSU.newUnchecked c (min minByteCap v.byteCap))
  Exec.debugAssert c.debug (max m newLen ≤ v.byteCap)
  if max m newLen < v.byteCap ∨ newAlign < v.align then do
    let oldLayout ← Exec.orUb (layoutUnchecked c v.byteCap v.align)
    if max m newLen > 0 then do
      let go ← shrinkBlock c env oldLayout (max m newLen) newAlign needRealign
      if go then Exec.modify (fun v => { v with align := newAlign })
      else pure ()
    else do
      releaseAll oldLayout newAlign
      Exec.modify (fun v => { v with align := newAlign })
  else pure ()

/-- `shrink_capacity_bytes_align_to` (478–582) -/
def shrinkTo (c : Cfg) (env : Env (Val T β)) (minCap minByteCap minAlign : Nat) : Exec (UVec T β) Unit := do
  shrinkInfos env minCap
  let v ← Exec.get
  let maxAlign ← Exec.orUb (v.maxAlignOfElems c)
  let newAlign := max (min minAlign v.align) maxAlign
  Exec.debugAssert c.debug (newAlign ≤ v.align)
  if newAlign < v.align ∧ v.len > 1 then do
    realignDown c newAlign
    shrinkCommit c env minByteCap newAlign true
  else shrinkCommit c env minByteCap newAlign false

/-! ## Adding elements -/

/-- `elems_info.insert_unchecked(index, info, ())` (sized.rs:95–107) as an operation on the list of records; needs a
free record. -/
def infoInsert (index : Nat) (info : Info T.Meta) : Exec (UVec T β) Unit := do
  let v ← Exec.get
  Exec.require (v.elems.length < v.elemsCap ∧ index ≤ v.elems.length)
  Exec.set { v with elems := v.elems.take index ++ info :: v.elems.drop index }

/-- `elems_info.push_unchecked(info, ())` (sized.rs:227–236) -/
def infoPush (info : Info T.Meta) : Exec (UVec T β) Unit := do
  let v ← Exec.get
  Exec.require (v.elems.length < v.elemsCap)
  Exec.set { v with elems := v.elems ++ [info] }

/-- `for ElementInfo { end_offset, .. } in elems { *end_offset = end_offset.unchecked_add(by) }` -/
def bumpInfos {R : Type} (c : Cfg) (by_ : Nat) : List (Info R) → Option (List (Info R))
  | [] => some []
  | e :: es => do
    let o ← VSU.uncheckedAdd c e.endOff by_
    let es' ← bumpInfos c by_ es
    pure ({ e with endOff := o } :: es')

/-- `for ElementInfo { end_offset, .. } in elems { *end_offset = end_offset.unchecked_sub(by) }` -/
def unbumpInfos {R : Type} (c : Cfg) (by_ : Nat) : List (Info R) → Option (List (Info R))
  | [] => some []
  | e :: es => do
    let o ← VSU.uncheckedSub c e.endOff by_
    let es' ← unbumpInfos c by_ es
    pure ({ e with endOff := o } :: es')

/-- Apply an offset adjustment to the records from `index` on (`elems_info.get_unchecked_mut(index..)`). -/
def adjustFrom (index : Nat) (f : List (Info T.Meta) → Option (List (Info T.Meta))) : Exec (UVec T β) Unit := do
  let v ← Exec.get
  Exec.require (index ≤ v.elems.length)
  let es ← Exec.orUb (f (v.elems.drop index))
  Exec.set { v with elems := v.elems.take index ++ es }

/-- `ptr::copy` inside the element storage, relative to pointer `p`. -/
def memmove (p src dst n : Nat) : Exec (UVec T β) Unit := do
  let v ← Exec.get
  let h ← Exec.orUb (v.heap.copy p src dst n)
  Exec.set { v with heap := h }

/-- `ptr::copy_nonoverlapping` into the element storage. -/
def memwrite (p dst : Nat) (bs : List β) : Exec (UVec T β) Unit := do
  let v ← Exec.get
  let h ← Exec.orUb (v.heap.write p dst bs)
  Exec.set { v with heap := h }

/-- `insert_unchecked` (584–638). The pointer is advanced by `index` (609), not by `start_offset`. The argument of
the `debug_assert!` is evaluated also in release builds here; this matters only for vectors whose end offsets are out of range. -/
def insertUnchecked (c : Cfg) (index : Nat) (x : Val T β) : Exec (UVec T β) Unit := do
  let v ← Exec.get
  Exec.debugAssert c.debug (index ≤ v.len)
  Exec.debugAssert c.debug (v.elemsCap > v.len)
  let alignedSize ← Exec.orUb (VSU.uncheckedPadTo c x.size v.align)
  let alen ← Exec.orUb (v.alignedByteLen c)
  Exec.debugAssert c.debug (v.byteCap ≥ alen + alignedSize)
  Exec.debugAssert c.debug (v.align ≥ x.align)
  let start ← Exec.orUb (v.startOffset c index)
  let toMove ← Exec.orUb (VSU.uncheckedSub c v.unalignedByteLen start)
  Exec.require (v.heap.addOk v.ptr index ∧ v.heap.addOk v.ptr (index + alignedSize))
  memmove v.ptr index (index + alignedSize) toMove
  memwrite v.ptr index x.bytes
  adjustFrom index (bumpInfos c alignedSize)
  let e ← Exec.orUb (VSU.uncheckedAdd c start x.size)
  infoInsert index ⟨x.md, e⟩

/-- `push_unchecked` (846–873) -/
def pushUnchecked (c : Cfg) (x : Val T β) : Exec (UVec T β) Unit := do
  let v ← Exec.get
  Exec.debugAssert c.debug (v.elemsCap - v.len > 0)
  let start ← Exec.orUb (v.alignedByteLen c)
  Exec.debugAssert c.debug (v.byteCap ≥ start + x.size)
  Exec.debugAssert c.debug (v.align ≥ x.align)
  memwrite v.ptr start x.bytes
  let e ← Exec.orUb (VSU.uncheckedAdd c start x.size)
  infoPush ⟨x.md, e⟩

/-- The reservation at the start of the emplacer closures of `push_with` and `insert_with` (676–682, 882–885). -/
def reserveForEmplace (c : Cfg) (env : Env (Val T β)) (l : Layout) : Exec (UVec T β) Unit := do
  match ← tryReserve c env 1 with
  | .error e => unwrapReserve (.error e)
  | .ok () => do
    let r ← tryReserveAdditionalBytesAlign c env l.size l.align
    unwrapReserve r

/-- The emplacer closure of `push_with` (878–904). -/
def pushWith (c : Cfg) (env : Env (Val T β)) : Emplacer (UVec T β) T β := fun layout md => do
  let size ← Exec.orUb (VSU.newUnchecked c layout.size)
  reserveForEmplace c env layout
  let v ← Exec.get
  let start ← Exec.orUb (v.alignedByteLen c)
  Exec.require (v.heap.addOk v.ptr start)
  pure (.place
    (fun bs => do
      Exec.require (bs.length ≤ layout.size)
      memwrite v.ptr start bs)
    (do
      let e ← Exec.orUb (VSU.uncheckedAdd c start size)
      infoPush ⟨md, e⟩)
    (pure ()))

/-- The emplacer closure of `insert_with_unchecked` (640–746), with the drop guard `ElementShifterBacker`. The `debug_assert!` in front of
it (668) repeats the check of the only caller, `insert_with` (src/lib.rs:845–854). -/
def insertWithUnchecked (c : Cfg) (env : Env (Val T β)) (index : Nat) : Emplacer (UVec T β) T β := fun layout md => do
  let size ← Exec.orUb (VSU.newUnchecked c layout.size)
  reserveForEmplace c env layout
  let v ← Exec.get
  let alignedSize ← Exec.orUb (VSU.uncheckedPadTo c size v.align)
  let start ← Exec.orUb (v.startOffset c index)
  Exec.require (v.heap.addOk v.ptr start)
  let toShift ← Exec.orUb (VSU.uncheckedSub c v.unalignedByteLen start)
  Exec.require (v.heap.addOk v.ptr (start + alignedSize))
  memmove v.ptr start (start + alignedSize) toShift
  pure (.place
    (fun bs => do
      Exec.require (bs.length ≤ layout.size)
      memwrite v.ptr start bs)
    (do
      adjustFrom index (bumpInfos c alignedSize)
      let e ← Exec.orUb (VSU.uncheckedAdd c start size)
      infoInsert index ⟨md, e⟩)
    (memmove v.ptr (start + alignedSize) start toShift))

/-! ## Removing elements -/

/-- The inner closure of `pop_into` / `remove_into` called with a non-null pointer: copy `n` bytes out. -/
def copyOut (p off n : Nat) (v : UVec T β) : WriteRes (UVec T β) β :=
  match v.heap.read p off n with
  | some bs => .done bs v
  | none => .ub

/-- `pop_into_unchecked` (913–972) -/
def popIntoUnchecked (c : Cfg) (env : Env (Val T β)) : Exec (UVec T β) (Started (UVec T β) T β) := do
  let v ← Exec.get
  Exec.debugAssert c.debug (v.elems ≠ [])
  let last ← Exec.orUb v.elems.getLast?
  Exec.modify (fun v => { v with elems := v.elems.dropLast })
  let v ← Exec.get
  let start ← Exec.orUb (v.alignedByteLen c)
  let size ← Exec.orUb (VSU.uncheckedSub c last.endOff start)
  Exec.require (v.heap.addOk v.ptr start)
  let r ← Exec.orUb (mkRef v.heap v.ptr start last.rem)
  let layout ← Exec.orUb (layoutUnchecked c size (T.alignOf r.md))
  pure
    { layout := layout
      md := last.rem
      write := copyOut v.ptr start size
      dropVal := dropInPlace env v.ptr start last.rem
      finish := pure () }

/-- `remove_into_unchecked` (748–843) -/
def removeIntoUnchecked (c : Cfg) (env : Env (Val T β)) (index : Nat) : Exec (UVec T β) (Started (UVec T β) T β) := do
  let v ← Exec.get
  Exec.debugAssert c.debug (index < v.len)
  let info ← Exec.orUb v.elems[index]?
  let start ← Exec.orUb (v.startOffset c index)
  let size ← Exec.orUb (VSU.uncheckedSub c info.endOff start)
  let alignedSize ← Exec.orUb (VSU.uncheckedPadTo c size v.align)
  Exec.require (v.heap.addOk v.ptr start)
  let r ← Exec.orUb (mkRef v.heap v.ptr start info.rem)
  let layout ← Exec.orUb (layoutUnchecked c size (T.alignOf r.md))
  pure
    { layout := layout
      md := info.rem
      write := copyOut v.ptr start size
      dropVal := dropInPlace env v.ptr start info.rem
      finish := do
        -- `Vec::remove` panics if out of range
        let v ← Exec.get
        Exec.assert (index < v.elems.length)
        Exec.set { v with elems := v.elems.eraseIdx index }
        adjustFrom index (unbumpInfos c alignedSize)
        let v ← Exec.get
        let toMove ← Exec.orUb (VSU.uncheckedSub c v.unalignedByteLen start)
        Exec.require (v.heap.addOk v.ptr (start + alignedSize))
        memmove v.ptr (start + alignedSize) start toMove }

/-! ## Access -/

/-- `get_unchecked_raw(index)` followed by `as_ref`/`as_mut` (985–1007, lib.rs:1102–1123) -/
def getUnchecked (c : Cfg) (v : UVec T β) (index : Nat) : Option (Ref T) := do
  let start ← v.startOffset c index
  let info ← v.elems[index]?
  let _size ← VSU.uncheckedSub c info.endOff start
  mkRef v.heap v.ptr start info.rem

end UVec

/-- A `Vec<S>` of a sized element type, as raw parts: `size_of::<S>()`, `align_of::<S>()`, pointer, capacity, length and
the bytes of its buffer. -/
structure RawVec (β : Type) where
  elemSize : Nat
  elemAlign : Nat
  ptr : Nat
  cap : Nat
  len : Nat
  heap : Heap β

namespace UVec
variable {T : UTy} {β : Type} [Inhabited β]

/-- `from_sized` (1030–1069): `md` is the metadata of the unsizing coercion `S → T`. The end offset of element
`index` is computed as `index * size_of::<S>()` (1055). -/
def fromSized (c : Cfg) (r : RawVec β) (md : T.Meta) : Option (UVec T β) := do
  let bc ← uncheckedMul c r.cap r.elemSize
  let bc ← VSU.newUnchecked c bc
  let es ← (List.range r.len).mapM (fun index => do
    let m ← uncheckedMul c index r.elemSize
    let o ← VSU.newUnchecked c m
    pure (⟨md, o⟩ : Info T.Meta))
  pure ⟨r.ptr, bc, es, r.len, r.elemAlign, r.heap, []⟩

end UVec
end Verif
