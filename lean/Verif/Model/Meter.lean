import Verif.Model.Client

/-!
# Counting the work

The functions of the three implementations once more, with a meter. The meter counts what is done in loops or by copying memory:

* a byte that is copied into, out of or inside the element storage,
* a byte of the old block whenever the allocator grows it (the allocator is free to move the block, and then copies it),
* a record of `elems_info` that is visited in a loop, written, or moved because of an insertion, a removal or the growth of `elems_info`.

Straight-line code (a bounds check, reading one record, arithmetic) is not counted: each call executes a bounded number of such steps.
Destructors and the shrinking of the capacity are not counted either. The state of a metered function is the state of the vector and the
meter. That the meter does not change what the functions do is a theorem (`C68_same_unaligned` and its like in Props/Cost).
-/

namespace Verif

namespace Meter
variable {σ α : Type}

/-- Add to the meter. -/
def count (n : Nat) : Exec (σ × Nat) Unit := Exec.modify (fun s => (s.1, s.2 + n))

/-- The state of the vector. -/
def look : Exec (σ × Nat) σ := liftL Exec.get

/-- Do something that costs `n`. -/
def paying (n : Nat) (m : Exec σ α) : Exec (σ × Nat) α := do
  count n
  liftL m

end Meter

open Meter

/-! ## Dynamically aligned elements (src/inner/unaligned.rs) -/

namespace UVec.Metered
variable {T : UTy} {β : Type} [Inhabited β]

/-- `UVec.tryReserve` (391–398): growing `elems_info` moves it. -/
def tryReserve (c : Cfg) (env : Env (Val T β)) (additional : Nat) : Exec (UVec T β × Nat) (Except TRE Unit) := do
  let v ← look
  match stdReserve c.infoMax v.elemsCap v.len additional env.infoGrow with
  | .error e => pure (.error e)
  | .ok cap => do
    count (if additional ≤ v.elemsCap - v.len then 0 else v.elemsCap)
    liftL (Exec.set { v with elemsCap := cap })
    pure (.ok ())

/-- The bytes that the second pass of `realign_up` moves (191–228), given the windows of the adjusted records. -/
def bytesMovedUp {R : Type} (newAlign : Nat) (ws : List (Info R × Info R)) : Nat :=
  (ws.map (fun w => w.2.endOff - padTo newAlign w.1.endOff)).sum

/-- `UVec.realignUp` (155–229): one pass over the records, and one over the elements. -/
def realignUp (c : Cfg) (newAlign : Nat) : Exec (UVec T β × Nat) Unit := do
  let v ← look
  Exec.debugAssert c.debug (v.len > 1 ∧ newAlign > v.align)
  count v.len
  let (es, fin) ← Exec.orUb (realignUpOffsets c v.align newAlign v.elems 0)
  count (v.len + bytesMovedUp newAlign (windows es))
  let h ← Exec.orUb (realignUpMove c v.align newAlign v.ptr (windows es).reverse fin v.heap)
  liftL (Exec.modify (fun v => { v with elems := es, heap := h }))

/-- `UVec.reserveCommit` (432–475): the allocator copies the old block. -/
def reserveCommit (c : Cfg) (env : Env (Val T β)) (additionalBytes newAlign cost : Nat) :
    Exec (UVec T β × Nat) (Except TRE Unit) := do
  let v ← look
  let oldAlign := v.align
  let oldCap := v.byteCap
  match ← Exec.orUb (newByteCap c oldCap cost additionalBytes newAlign) with
  | none => pure (.error .capacityOverflow)
  | some newCap =>
    if oldAlign < newAlign ∨ oldCap < newCap then
      if newCap > 0 then do
        let newLayout ← Exec.orUb (layoutUnchecked c newCap newAlign)
        match ← Exec.orUb (v.growStorage c env newLayout) with
        | none => pure (.error .allocError)
        | some (h, addr, granted) => do
          count oldCap
          let cap' ← Exec.orUb (VSU.newSquishedTo c granted newAlign)
          liftL (Exec.modify (fun v => { v with byteCap := cap', ptr := addr, heap := h }))
          if oldAlign < newAlign then do
            if v.len > 1 then realignUp c newAlign
            liftL (Exec.modify (fun v => { v with align := newAlign }))
          pure (.ok ())
      else do
        liftL (Exec.modify (fun v => { v with ptr := newAlign }))
        pure (.ok ())
    else pure (.ok ())

/-- `UVec.tryReserveAdditionalBytesAlign` (400–476): `len_after_realign_up` visits all records. -/
def tryReserveAdditionalBytesAlign (c : Cfg) (env : Env (Val T β)) (additionalBytes align : Nat) :
    Exec (UVec T β × Nat) (Except TRE Unit) := do
  let v ← look
  let oldAlign := v.align
  let newAlign := max oldAlign align
  let oldLen ← Exec.orUb (v.alignedByteLen c)
  if oldAlign < newAlign then do
    Exec.debugAssert c.debug (v.align ≤ newAlign)
    count v.len
    match ← Exec.orUb (v.lenAfterRealignUp c newAlign) with
    | none => pure (.error .capacityOverflow)
    | some realigned => do
      let cost ← Exec.orUb (VSU.uncheckedSub c realigned oldLen)
      reserveCommit c env additionalBytes newAlign cost
  else if additionalBytes = 0 then pure (.ok ())
  else do
    let cost ← Exec.orUb (VSU.uncheckedSub c oldLen oldLen)
    reserveCommit c env additionalBytes newAlign cost

/-- `UVec.infoInsert` (sized.rs:95–107): the records behind move up by one. -/
def infoInsert (index : Nat) (info : Info T.Meta) : Exec (UVec T β × Nat) Unit := do
  let v ← look
  paying (v.len - index + 1) (UVec.infoInsert index info)

/-- `UVec.infoPush` (sized.rs:227–236) -/
def infoPush (info : Info T.Meta) : Exec (UVec T β × Nat) Unit := paying 1 (UVec.infoPush info)

/-- `UVec.adjustFrom`: the records from `index` on are visited. -/
def adjustFrom (index : Nat) (f : List (Info T.Meta) → Option (List (Info T.Meta))) : Exec (UVec T β × Nat) Unit := do
  let v ← look
  paying (v.len - index) (UVec.adjustFrom index f)

/-- `UVec.memmove`: `n` bytes. -/
def memmove (p src dst n : Nat) : Exec (UVec T β × Nat) Unit := paying n (UVec.memmove p src dst n)

/-- `UVec.memwrite` -/
def memwrite (p dst : Nat) (bs : List β) : Exec (UVec T β × Nat) Unit := paying bs.length (UVec.memwrite p dst bs)

/-- `UVec.insertUnchecked` (584–638) -/
def insertUnchecked (c : Cfg) (index : Nat) (x : Val T β) : Exec (UVec T β × Nat) Unit := do
  let v ← look
  Exec.debugAssert c.debug (index ≤ v.len)
  Exec.debugAssert c.debug (v.elemsCap > v.len)
  let alignedSize ← Exec.orUb (VSU.uncheckedPadTo c x.size v.align)
  let alen ← Exec.orUb (v.alignedByteLen c)
  Exec.debugAssert c.debug (v.byteCap ≥ alen + alignedSize)
  Exec.debugAssert c.debug (v.align ≥ x.align)
  let start ← Exec.orUb (v.startOffset c index)
  let toMove ← Exec.orUb (VSU.uncheckedSub c v.unalignedByteLen start)
  Exec.require (v.heap.addOk v.ptr index ∧ v.heap.addOk v.ptr (index + alignedSize))
  memmove v.ptr index (index + alignedSize) toMove
  memwrite v.ptr index x.bytes
  adjustFrom index (bumpInfos c alignedSize)
  let e ← Exec.orUb (VSU.uncheckedAdd c start x.size)
  infoInsert index ⟨x.md, e⟩

/-- `UVec.pushUnchecked` (846–873) -/
def pushUnchecked (c : Cfg) (x : Val T β) : Exec (UVec T β × Nat) Unit := do
  let v ← look
  Exec.debugAssert c.debug (v.elemsCap - v.len > 0)
  let start ← Exec.orUb (v.alignedByteLen c)
  Exec.debugAssert c.debug (v.byteCap ≥ start + x.size)
  Exec.debugAssert c.debug (v.align ≥ x.align)
  memwrite v.ptr start x.bytes
  let e ← Exec.orUb (VSU.uncheckedAdd c start x.size)
  infoPush ⟨x.md, e⟩

/-- `UVec.reserveForEmplace` (676–682, 882–885) -/
def reserveForEmplace (c : Cfg) (env : Env (Val T β)) (l : Layout) : Exec (UVec T β × Nat) Unit := do
  match ← tryReserve c env 1 with
  | .error e => unwrapReserve (.error e)
  | .ok () => do
    let r ← tryReserveAdditionalBytesAlign c env l.size l.align
    unwrapReserve r

/-- `UVec.pushWith` (878–904) -/
def pushWith (c : Cfg) (env : Env (Val T β)) : Emplacer (UVec T β × Nat) T β := fun layout md => do
  let size ← Exec.orUb (VSU.newUnchecked c layout.size)
  reserveForEmplace c env layout
  let v ← look
  let start ← Exec.orUb (v.alignedByteLen c)
  Exec.require (v.heap.addOk v.ptr start)
  pure (.place
    (fun bs => do
      Exec.require (bs.length ≤ layout.size)
      memwrite v.ptr start bs)
    (do
      let e ← Exec.orUb (VSU.uncheckedAdd c start size)
      infoPush ⟨md, e⟩)
    (pure ()))

/-- `UVec.insertWithUnchecked` (640–746) -/
def insertWithUnchecked (c : Cfg) (env : Env (Val T β)) (index : Nat) : Emplacer (UVec T β × Nat) T β := fun layout md => do
  let size ← Exec.orUb (VSU.newUnchecked c layout.size)
  reserveForEmplace c env layout
  let v ← look
  let alignedSize ← Exec.orUb (VSU.uncheckedPadTo c size v.align)
  let start ← Exec.orUb (v.startOffset c index)
  Exec.require (v.heap.addOk v.ptr start)
  let toShift ← Exec.orUb (VSU.uncheckedSub c v.unalignedByteLen start)
  Exec.require (v.heap.addOk v.ptr (start + alignedSize))
  memmove v.ptr start (start + alignedSize) toShift
  pure (.place
    (fun bs => do
      Exec.require (bs.length ≤ layout.size)
      memwrite v.ptr start bs)
    (do
      adjustFrom index (bumpInfos c alignedSize)
      let e ← Exec.orUb (VSU.uncheckedAdd c start size)
      infoInsert index ⟨md, e⟩)
    (memmove v.ptr (start + alignedSize) start toShift))

/-- `UVec.copyOut`: `n` bytes. -/
def copyOut (p off n : Nat) (s : UVec T β × Nat) : WriteRes (UVec T β × Nat) β :=
  match s.1.heap.read p off n with
  | some bs => .done bs (s.1, s.2 + n)
  | none => .ub

/-- `UVec.popIntoUnchecked` (913–972) -/
def popIntoUnchecked (c : Cfg) (env : Env (Val T β)) : Exec (UVec T β × Nat) (Started (UVec T β × Nat) T β) := do
  let v ← look
  Exec.debugAssert c.debug (v.elems ≠ [])
  let last ← Exec.orUb v.elems.getLast?
  liftL (Exec.modify (fun v => { v with elems := v.elems.dropLast }))
  let v ← look
  let start ← Exec.orUb (v.alignedByteLen c)
  let size ← Exec.orUb (VSU.uncheckedSub c last.endOff start)
  Exec.require (v.heap.addOk v.ptr start)
  let r ← Exec.orUb (mkRef v.heap v.ptr start last.rem)
  let layout ← Exec.orUb (layoutUnchecked c size (T.alignOf r.md))
  pure
    { layout := layout
      md := last.rem
      write := copyOut v.ptr start size
      dropVal := liftL (dropInPlace env v.ptr start last.rem)
      finish := pure () }

/-- `UVec.removeIntoUnchecked` (748–843): `Vec::remove` moves the records behind down by one. -/
def removeIntoUnchecked (c : Cfg) (env : Env (Val T β)) (index : Nat) : Exec (UVec T β × Nat) (Started (UVec T β × Nat) T β) := do
  let v ← look
  Exec.debugAssert c.debug (index < v.len)
  let info ← Exec.orUb v.elems[index]?
  let start ← Exec.orUb (v.startOffset c index)
  let size ← Exec.orUb (VSU.uncheckedSub c info.endOff start)
  let alignedSize ← Exec.orUb (VSU.uncheckedPadTo c size v.align)
  Exec.require (v.heap.addOk v.ptr start)
  let r ← Exec.orUb (mkRef v.heap v.ptr start info.rem)
  let layout ← Exec.orUb (layoutUnchecked c size (T.alignOf r.md))
  pure
    { layout := layout
      md := info.rem
      write := copyOut v.ptr start size
      dropVal := liftL (dropInPlace env v.ptr start info.rem)
      finish := do
        let v ← look
        Exec.assert (index < v.elems.length)
        paying (v.len - index) (Exec.set { v with elems := v.elems.eraseIdx index })
        adjustFrom index (unbumpInfos c alignedSize)
        let v ← look
        let toMove ← Exec.orUb (VSU.uncheckedSub c v.unalignedByteLen start)
        Exec.require (v.heap.addOk v.ptr (start + alignedSize))
        memmove v.ptr (start + alignedSize) start toMove }

end UVec.Metered

/-! ## Statically aligned unsized elements (src/inner/aligned.rs) -/

namespace AVec.Metered
variable {A : ATy} {β : Type} [Inhabited β]

/-- `AVec.tryReserve` (157–164) -/
def tryReserve (c : Cfg) (env : Env (Val A.ty β)) (additional : Nat) : Exec (AVec A β × Nat) (Except TRE Unit) := do
  let v ← look
  match stdReserve c.infoMax v.elemsCap v.len additional env.infoGrow with
  | .error e => pure (.error e)
  | .ok cap => do
    count (if additional ≤ v.elemsCap - v.len then 0 else v.elemsCap)
    liftL (Exec.set { v with elemsCap := cap })
    pure (.ok ())

/-- `AVec.tryReserveAdditionalBytes` (167–205) -/
def tryReserveAdditionalBytes (c : Cfg) (env : Env (Val A.ty β)) (additionalBytes : Nat) :
    Exec (AVec A β × Nat) (Except TRE Unit) := do
  let v ← look
  let oldCap := v.byteCap
  if additionalBytes > 0 then
    match (checkedAdd c oldCap additionalBytes).bind (VS.new c A.ALIGN) with
    | none => pure (.error .capacityOverflow)
    | some newCap => do
      let newLayout ← Exec.orUb (layoutUnchecked c newCap A.ALIGN)
      match ← Exec.orUb (v.growStorage c env newLayout) with
      | none => pure (.error .allocError)
      | some (h, addr, granted) => do
        count oldCap
        liftL (Exec.modify (fun v => { v with ptr := addr, byteCap := VS.newSquished c A.ALIGN granted, heap := h }))
        pure (.ok ())
  else pure (.ok ())

/-- `AVec.infoInsert` (sized.rs:95–107) -/
def infoInsert (index : Nat) (info : Info A.R) : Exec (AVec A β × Nat) Unit := do
  let v ← look
  paying (v.len - index + 1) (AVec.infoInsert index info)

/-- `AVec.infoPush` (sized.rs:227–236) -/
def infoPush (info : Info A.R) : Exec (AVec A β × Nat) Unit := paying 1 (AVec.infoPush info)

/-- `AVec.adjustFrom` -/
def adjustFrom (index : Nat) (f : List (Info A.R) → Option (List (Info A.R))) : Exec (AVec A β × Nat) Unit := do
  let v ← look
  paying (v.len - index) (AVec.adjustFrom index f)

/-- `AVec.memmove` -/
def memmove (p src dst n : Nat) : Exec (AVec A β × Nat) Unit := paying n (AVec.memmove p src dst n)

/-- `AVec.memwrite` -/
def memwrite (p dst : Nat) (bs : List β) : Exec (AVec A β × Nat) Unit := paying bs.length (AVec.memwrite p dst bs)

/-- `AVec.insertUnchecked` (242–279) -/
def insertUnchecked (c : Cfg) (index : Nat) (x : Val A.ty β) : Exec (AVec A β × Nat) Unit := do
  let v ← look
  let size ← Exec.orUb (VS.newUnchecked c A.ALIGN x.size)
  Exec.debugAssert c.debug (v.elemsCap > v.len)
  Exec.debugAssert c.debug (v.byteCap ≥ v.byteLen + size)
  let start ← Exec.orUb (v.startOffset index)
  let toMove ← Exec.orUb (VS.uncheckedSub c A.ALIGN v.byteLen start)
  Exec.require (v.heap.addOk v.ptr index ∧ v.heap.addOk v.ptr (index + size))
  memmove v.ptr index (index + size) toMove
  memwrite v.ptr index x.bytes
  adjustFrom index (bumpInfos c A.ALIGN size)
  let e ← Exec.orUb (VS.uncheckedAdd c A.ALIGN start size)
  infoInsert index ⟨A.enc x.md, e⟩

/-- `AVec.pushUnchecked` (470–494) -/
def pushUnchecked (c : Cfg) (x : Val A.ty β) : Exec (AVec A β × Nat) Unit := do
  let v ← look
  let size ← Exec.orUb (VS.newUnchecked c A.ALIGN x.size)
  Exec.debugAssert c.debug (v.elemsCap - v.len > 0)
  Exec.debugAssert c.debug (v.byteCap ≥ v.byteLen + size)
  let start := v.byteLen
  memwrite v.ptr start x.bytes
  let e ← Exec.orUb (VS.uncheckedAdd c A.ALIGN start size)
  infoPush ⟨A.enc x.md, e⟩

/-- `AVec.reserveForEmplace` (320–323, 506–509) -/
def reserveForEmplace (c : Cfg) (env : Env (Val A.ty β)) (l : Layout) : Exec (AVec A β × Nat) Unit := do
  match ← tryReserve c env 1 with
  | .error e => unwrapReserve (.error e)
  | .ok () => do
    let r ← tryReserveAdditionalBytes c env l.size
    unwrapReserve r

/-- `AVec.pushWith` (499–528) -/
def pushWith (c : Cfg) (env : Env (Val A.ty β)) : Emplacer (AVec A β × Nat) A.ty β := fun layout md => do
  let size ← Exec.orUb (VS.newUnchecked c A.ALIGN layout.size)
  reserveForEmplace c env layout
  let v ← look
  let start := v.byteLen
  Exec.require (v.heap.addOk v.ptr start)
  pure (.place
    (fun bs => do
      Exec.require (bs.length ≤ layout.size)
      memwrite v.ptr start bs)
    (do
      let e ← Exec.orUb (VS.uncheckedAdd c A.ALIGN start size)
      infoPush ⟨A.enc md, e⟩)
    (pure ()))

/-- `AVec.insertWithUnchecked` (281–381) -/
def insertWithUnchecked (c : Cfg) (env : Env (Val A.ty β)) (index : Nat) : Emplacer (AVec A β × Nat) A.ty β :=
  fun layout md => do
  let size ← Exec.orUb (VS.newUnchecked c A.ALIGN layout.size)
  reserveForEmplace c env layout
  let v ← look
  let start ← Exec.orUb (v.startOffset index)
  Exec.require (v.heap.addOk v.ptr start)
  let toShift ← Exec.orUb (VS.uncheckedSub c A.ALIGN v.byteLen start)
  Exec.require (v.heap.addOk v.ptr (start + size))
  memmove v.ptr start (start + size) toShift
  pure (.place
    (fun bs => do
      Exec.require (bs.length ≤ layout.size)
      memwrite v.ptr start bs)
    (do
      adjustFrom index (bumpInfos c A.ALIGN size)
      let e ← Exec.orUb (VS.uncheckedAdd c A.ALIGN start size)
      infoInsert index ⟨A.enc md, e⟩)
    (memmove v.ptr (start + size) start toShift))

/-- `AVec.copyOut` -/
def copyOut (p off n : Nat) (s : AVec A β × Nat) : WriteRes (AVec A β × Nat) β :=
  match s.1.heap.read p off n with
  | some bs => .done bs (s.1, s.2 + n)
  | none => .ub

/-- `AVec.popIntoUnchecked` (536–588) -/
def popIntoUnchecked (c : Cfg) (env : Env (Val A.ty β)) :
    Exec (AVec A β × Nat) (Started (AVec A β × Nat) A.ty β) := do
  let v ← look
  Exec.debugAssert c.debug (v.elems ≠ [])
  let last ← Exec.orUb v.elems.getLast?
  liftL (Exec.modify (fun v => { v with elems := v.elems.dropLast }))
  let v ← look
  let start := v.byteLen
  let size ← Exec.orUb (VS.uncheckedSub c A.ALIGN last.endOff start)
  let md := A.dec last.rem size
  Exec.require (v.heap.addOk v.ptr start)
  let layout ← Exec.orUb (layoutUnchecked c size A.ALIGN)
  pure
    { layout := layout
      md := md
      write := copyOut v.ptr start size
      dropVal := liftL (dropInPlace env v.ptr start md)
      finish := pure () }

/-- `AVec.removeIntoUnchecked` (383–468) -/
def removeIntoUnchecked (c : Cfg) (env : Env (Val A.ty β)) (index : Nat) :
    Exec (AVec A β × Nat) (Started (AVec A β × Nat) A.ty β) := do
  let v ← look
  Exec.debugAssert c.debug (index < v.len)
  let info ← Exec.orUb v.elems[index]?
  let start ← Exec.orUb (v.startOffset index)
  let size ← Exec.orUb (VS.uncheckedSub c A.ALIGN info.endOff start)
  let md := A.dec info.rem size
  Exec.require (v.heap.addOk v.ptr start)
  let layout ← Exec.orUb (layoutUnchecked c size A.ALIGN)
  pure
    { layout := layout
      md := md
      write := copyOut v.ptr start size
      dropVal := liftL (dropInPlace env v.ptr start md)
      finish := do
        let v ← look
        Exec.assert (index < v.elems.length)
        paying (v.len - index) (Exec.set { v with elems := v.elems.eraseIdx index })
        adjustFrom index (unbumpInfos c A.ALIGN size)
        let v ← look
        let toMove ← Exec.orUb (VS.uncheckedSub c A.ALIGN v.byteLen start)
        Exec.require (v.heap.addOk v.ptr (start + size))
        memmove v.ptr (start + size) start toMove }

end AVec.Metered

/-! ## Sized elements (src/inner/sized.rs) -/

namespace SVec.Metered
variable {sz al : Nat} {β : Type} [Inhabited β]

/-- `SVec.tryReserve` (57–64): growing the `Vec` copies it. -/
def tryReserve (c : Cfg) (env : Env (Val (sizedTy sz al) β)) (additional : Nat) :
    Exec (SVec sz al β × Nat) (Except TRE Unit) := do
  let v ← look
  match stdReserve (maxSlots c sz) (v.capacity c) v.len additional env.infoGrow with
  | .error e => pure (.error e)
  | .ok cap => do
    count (if additional ≤ v.capacity c - v.len then 0 else v.slots * sz)
    liftL (Exec.set (if additional ≤ v.capacity c - v.len then v
      else { v with slots := cap, allocs := v.allocs + 1 }))
    pure (.ok ())

/-- `SVec.tryReserveAdditionalBytes` (67–78) -/
def tryReserveAdditionalBytes (c : Cfg) (env : Env (Val (sizedTy sz al) β)) (additionalBytes : Nat) :
    Exec (SVec sz al β × Nat) (Except TRE Unit) := do
  let v ← look
  let free ← Exec.orUb (uncheckedSub (v.capacity c) v.len)
  let needed ← divCeil (saturatingAdd c additionalBytes free) sz
  tryReserve c env (needed - free)

/-- `SVec.memmove`: `n` elements. -/
def memmove (c : Cfg) (src dst n : Nat) : Exec (SVec sz al β × Nat) Unit := paying (n * sz) (SVec.memmove c src dst n)

/-- `SVec.memwrite` -/
def memwrite (c : Cfg) (i : Nat) (bs : List β) : Exec (SVec sz al β × Nat) Unit := paying bs.length (SVec.memwrite c i bs)

/-- `SVec.insertUnchecked` (95–107) -/
def insertUnchecked (c : Cfg) (index : Nat) (x : Val (sizedTy sz al) β) : Exec (SVec sz al β × Nat) Unit := do
  let v ← look
  Exec.debugAssert c.debug (v.capacity c > v.len)
  let toMove ← Exec.orUb (uncheckedSub v.len index)
  Exec.require (index ≤ v.capacity c ∧ index + 1 ≤ v.capacity c)
  memmove c index (index + 1) toMove
  memwrite c index x.bytes
  let n ← Exec.orUb (uncheckedAdd c v.len 1)
  liftL (setLen c n)

/-- `SVec.pushUnchecked` (227–236) -/
def pushUnchecked (c : Cfg) (x : Val (sizedTy sz al) β) : Exec (SVec sz al β × Nat) Unit := do
  let v ← look
  Exec.debugAssert c.debug (v.capacity c - v.len > 0)
  Exec.require (v.len ≤ v.capacity c)
  memwrite c v.len x.bytes
  let n ← Exec.orUb (uncheckedAdd c v.len 1)
  liftL (setLen c n)

/-- `SVec.pushWith` (241–252) -/
def pushWith (c : Cfg) (env : Env (Val (sizedTy sz al) β)) : Emplacer (SVec sz al β × Nat) (sizedTy sz al) β :=
  fun layout _ => do
  let r ← tryReserve c env 1
  unwrapReserve r
  let v ← look
  Exec.require (v.len ≤ v.capacity c)
  pure (.place
    (fun bs => do
      Exec.require (bs.length ≤ layout.size)
      memwrite c v.len bs)
    (do
      let v ← look
      let n ← Exec.orUb (uncheckedAdd c v.len 1)
      liftL (setLen c n))
    (pure ()))

/-- `SVec.insertWithUnchecked` (109–175) -/
def insertWithUnchecked (c : Cfg) (env : Env (Val (sizedTy sz al) β)) (index : Nat) :
    Emplacer (SVec sz al β × Nat) (sizedTy sz al) β := fun layout _ => do
  let r ← tryReserve c env 1
  unwrapReserve r
  let v ← look
  Exec.require (index ≤ v.capacity c)
  let toShift ← Exec.orUb (uncheckedSub v.len index)
  Exec.require (index + 1 ≤ v.capacity c)
  memmove c index (index + 1) toShift
  pure (.place
    (fun bs => do
      Exec.require (bs.length ≤ layout.size)
      memwrite c index bs)
    (do
      let v ← look
      let n ← Exec.orUb (uncheckedAdd c v.len 1)
      liftL (setLen c n))
    (memmove c (index + 1) index toShift))

/-- `SVec.copyOut`: one element. -/
def copyOut (c : Cfg) (i : Nat) (s : SVec sz al β × Nat) : WriteRes (SVec sz al β × Nat) β :=
  if i + 1 ≤ s.1.capacity c then .done (s.1.mem i) (s.1, s.2 + sz) else .ub

/-- `SVec.popIntoUnchecked` (260–294) -/
def popIntoUnchecked (c : Cfg) (env : Env (Val (sizedTy sz al) β)) :
    Exec (SVec sz al β × Nat) (Started (SVec sz al β × Nat) (sizedTy sz al) β) := do
  let v ← look
  Exec.debugAssert c.debug (v.len ≠ 0)
  let newLen ← Exec.orUb (uncheckedSub v.len 1)
  liftL (setLen c newLen)
  Exec.require (newLen ≤ v.capacity c)
  pure
    { layout := ⟨sz, al⟩
      md := ()
      write := copyOut c newLen
      dropVal := liftL (dropInPlace c env newLen)
      finish := pure () }

/-- `SVec.removeIntoUnchecked` (177–224) -/
def removeIntoUnchecked (c : Cfg) (env : Env (Val (sizedTy sz al) β)) (index : Nat) :
    Exec (SVec sz al β × Nat) (Started (SVec sz al β × Nat) (sizedTy sz al) β) := do
  let v ← look
  Exec.debugAssert c.debug (index < v.len)
  let newLen ← Exec.orUb (uncheckedSub v.len 1)
  liftL (setLen c newLen)
  Exec.require (index ≤ v.capacity c)
  let toMove ← Exec.orUb (uncheckedSub newLen index)
  pure
    { layout := ⟨sz, al⟩
      md := ()
      write := copyOut c index
      dropVal := liftL (dropInPlace c env index)
      finish := do
        Exec.require (index + 1 ≤ v.capacity c)
        memmove c (index + 1) index toMove }

end SVec.Metered

/-! ## The machines -/

section
variable {β : Type} [Inhabited β]

/-- `unalignedM` with a meter -/
def unalignedMetered (c : Cfg) (T : UTy) : Machine (UVec T β × Nat) T β where
  P :=
    { newAlign1 := (UVec.newAlign1, 0)
      newAlignPtr := (UVec.newAlignPtr c, 0)
      capacity := fun s => (unalignedP c T).capacity s.1
      byteLen := fun s => (unalignedP c T).byteLen s.1
      byteCapacity := fun s => (unalignedP c T).byteCapacity s.1
      align := fun s => (unalignedP c T).align s.1
      len := fun s => (unalignedP c T).len s.1
      alignNew := (unalignedP (β := β) c T).alignNew
      tryReserve := UVec.Metered.tryReserve c
      tryReserveExact := UVec.Metered.tryReserve c
      tryReserveAdditionalBytesAlign := UVec.Metered.tryReserveAdditionalBytesAlign c
      shrinkTo := fun env n b a => liftL (UVec.shrinkTo c env n b a)
      insertUnchecked := UVec.Metered.insertUnchecked c
      insertWithUnchecked := UVec.Metered.insertWithUnchecked c
      removeIntoUnchecked := UVec.Metered.removeIntoUnchecked c
      pushUnchecked := UVec.Metered.pushUnchecked c
      pushWith := UVec.Metered.pushWith c
      popIntoUnchecked := UVec.Metered.popIntoUnchecked c
      getUnchecked := fun s i => (unalignedP c T).getUnchecked s.1 i }
  read s r := (unalignedM c T).read s.1 r
  store r bs := paying bs.length ((unalignedM c T).store r bs)
  calls s ks := (unalignedM c T).calls s.1 ks
  drop env := liftL ((unalignedM c T).drop env)
  drops s := (unalignedM c T).drops s.1
  note x s := ((unalignedM c T).note x s.1, s.2)

/-- `alignedM` with a meter -/
def alignedMetered (c : Cfg) (A : ATy) : Machine (AVec A β × Nat) A.ty β where
  P :=
    { newAlign1 := (AVec.new, 0)
      newAlignPtr := (AVec.new, 0)
      capacity := fun s => (alignedP c A).capacity s.1
      byteLen := fun s => (alignedP c A).byteLen s.1
      byteCapacity := fun s => (alignedP c A).byteCapacity s.1
      align := fun s => (alignedP c A).align s.1
      len := fun s => (alignedP c A).len s.1
      alignNew := (alignedP (β := β) c A).alignNew
      tryReserve := AVec.Metered.tryReserve c
      tryReserveExact := AVec.Metered.tryReserve c
      tryReserveAdditionalBytesAlign := fun env b _ => AVec.Metered.tryReserveAdditionalBytes c env b
      shrinkTo := fun env n b _ => liftL (AVec.shrinkTo c env n b)
      insertUnchecked := AVec.Metered.insertUnchecked c
      insertWithUnchecked := AVec.Metered.insertWithUnchecked c
      removeIntoUnchecked := AVec.Metered.removeIntoUnchecked c
      pushUnchecked := AVec.Metered.pushUnchecked c
      pushWith := AVec.Metered.pushWith c
      popIntoUnchecked := AVec.Metered.popIntoUnchecked c
      getUnchecked := fun s i => (alignedP c A).getUnchecked s.1 i }
  read s r := (alignedM c A).read s.1 r
  store r bs := paying bs.length ((alignedM c A).store r bs)
  calls s ks := (alignedM c A).calls s.1 ks
  drop env := liftL ((alignedM c A).drop env)
  drops s := (alignedM c A).drops s.1
  note x s := ((alignedM c A).note x s.1, s.2)

/-- `sizedM` with a meter -/
def sizedMetered (c : Cfg) (sz al : Nat) : Machine (SVec sz al β × Nat) (sizedTy sz al) β where
  P :=
    { newAlign1 := (SVec.new, 0)
      newAlignPtr := (SVec.new, 0)
      capacity := fun s => (sizedP c sz al).capacity s.1
      byteLen := fun s => (sizedP c sz al).byteLen s.1
      byteCapacity := fun s => (sizedP c sz al).byteCapacity s.1
      align := fun s => (sizedP c sz al).align s.1
      len := fun s => (sizedP c sz al).len s.1
      alignNew := (sizedP (β := β) c sz al).alignNew
      tryReserve := SVec.Metered.tryReserve c
      tryReserveExact := SVec.Metered.tryReserve c
      tryReserveAdditionalBytesAlign := fun env b _ => SVec.Metered.tryReserveAdditionalBytes c env b
      shrinkTo := fun env n b _ => liftL (SVec.shrinkTo env n b)
      insertUnchecked := SVec.Metered.insertUnchecked c
      insertWithUnchecked := SVec.Metered.insertWithUnchecked c
      removeIntoUnchecked := SVec.Metered.removeIntoUnchecked c
      pushUnchecked := SVec.Metered.pushUnchecked c
      pushWith := SVec.Metered.pushWith c
      popIntoUnchecked := SVec.Metered.popIntoUnchecked c
      getUnchecked := fun s i => (sizedP c sz al).getUnchecked s.1 i }
  read s r := (sizedM c sz al).read s.1 r
  store r bs := paying bs.length ((sizedM c sz al).store r bs)
  calls s ks := (sizedM c sz al).calls s.1 ks
  drop env := liftL ((sizedM c sz al).drop env)
  drops s := (sizedM c sz al).drops s.1
  note x s := ((sizedM c sz al).note x s.1, s.2)

end
end Verif
