import Verif.Model.Unaligned

/-!
# The implementation for statically aligned unsized elements

Transcription of `src/inner/aligned.rs` (all line numbers in this file refer to it unless said otherwise).
-/

namespace Verif

/-- An unsized type with a static alignment (`Aligned`, marker.rs:16–43) together with the encoding of its
pointer metadata in the element-info records (`SplitMetadata`, helper.rs:62–74). -/
structure ATy where
  ty : UTy
  /-- `<T as Aligned>::ALIGN` -/
  ALIGN : Nat
  /-- `<T as SplitMetadata>::Remainder` -/
  R : Type
  /-- `MetadataRemainder::from_metadata` -/
  enc : ty.Meta → R
  /-- `MetadataRemainder::as_metadata` -/
  dec : R → Nat → ty.Meta

/-- `FullMetadataRemainder` (helper.rs:27–28, 42–52, 66–68): the metadata is stored (`str`, `CStr`). -/
def ATy.full (T : UTy) (align : Nat) : ATy := ⟨T, align, T.Meta, id, fun m _ => m⟩

/-- The type `[S]` for an element of the given size and alignment: metadata is the length. -/
def sliceTy (elemSize elemAlign : Nat) : UTy := ⟨Nat, fun n => n * elemSize, fun _ => elemAlign⟩

/-- `()` as remainder (helper.rs:53–61) for slices (helper.rs:20–25): the length is the size divided by the element
size, or 0 if that is zero. -/
def ATy.slice (elemSize elemAlign : Nat) : ATy :=
  ⟨sliceTy elemSize elemAlign, elemAlign, Unit, fun _ => (),
    fun _ size => (if elemSize = 0 then 0 else size / elemSize : Nat)⟩

/-- `str` (helper.rs:66–68, marker.rs:36–38): metadata is the number of bytes; `ALIGN` is `align_of_val("")`, the alignment of a `str`. -/
def ATy.str : ATy := ATy.full (sliceTy 1 1) 1

/-- The type `CStr`: metadata is the number of bytes, including the nul byte at the end; the alignment is 1. Restricted to those lengths
for which `ValidSize<CStr>` (helper/valid_size.rs:55–58) has a value; see `ATy.cstrAny` for all lengths. -/
def cstrTy (c : Cfg) : UTy := ⟨{ n : Nat // 0 < n ∧ n + (c.usizeAlign - 1) ≤ c.isizeMax }, fun n => n.1, fun _ => 1⟩

/-- `CStr` (helper.rs:66–68, marker.rs:41–43): `ALIGN` is `align_of_val(&c"")`. The literal `c""` has the type `&CStr`, and `align_of_val` is
given a reference to it: this is the alignment of a reference, which is that of `usize`, not the alignment of a `CStr`. -/
def ATy.cstr (c : Cfg) : ATy := ATy.full (cstrTy c) c.usizeAlign

/-- `CStr` with all lengths. -/
def ATy.cstrAny (c : Cfg) : ATy := ATy.full (sliceTy 1 1) c.usizeAlign

/-- `AlignedVecInner<T>` (41–46), together with the memory it owns and the log of destructor runs. -/
structure AVec (A : ATy) (β : Type) where
  ptr : Nat
  byteCap : Nat
  elems : List (Info A.R)
  /-- `elems_info.capacity()` -/
  elemsCap : Nat
  heap : Heap β
  /-- ghost: values whose destructor has been run, in order -/
  drops : List (Val A.ty β)

namespace AVec
variable {A : ATy} {β : Type} [Inhabited β]

/-- `NEW_ALIGN_1` = `NEW_ALIGN_PTR` (127–134) -/
def new : AVec A β := ⟨A.ALIGN, 0, [], 0, Heap.empty, []⟩

/-- `len` (591–593) -/
def len (v : AVec A β) : Nat := v.elems.length

/-- `byte_len` (52–56) -/
def byteLen (v : AVec A β) : Nat := lastEnd v.elems

/-- `start_offset_of_unchecked` (64–72) -/
def startOffset (v : AVec A β) (index : Nat) : Option Nat :=
  match index with
  | 0 => some 0
  | j + 1 =>
    match v.elems[j]? with
    | some e => some e.endOff
    | none => none

end AVec

/-! ## Iterators (686–809) -/

/-- `AlignedIter` / `AlignedIterMut` (688–692) -/
structure AIter (A : ATy) where
  infos : List (Info A.R)
  ptr : Nat
  startOff : Nat

namespace AIter
variable {A : ATy} {β : Type} [Inhabited β]

/-- `next` (698–719) -/
def next (c : Cfg) (h : Heap β) (it : AIter A) : Option (Option (Ref A.ty) × AIter A) :=
  match it.infos with
  | [] => some (none, it)
  | e :: rest => do
    let size ← VS.uncheckedSub c A.ALIGN e.endOff it.startOff
    let r ← mkRef h it.ptr it.startOff (A.dec e.rem size)
    pure (some r, { it with infos := rest, startOff := e.endOff })

/-- `nth` (732–759) -/
def nth (c : Cfg) (h : Heap β) (it : AIter A) (n : Nat) : Option (Option (Ref A.ty) × AIter A) := do
  let (skipped, infos') := match n with
    | 0 => (none, it.infos)
    | m + 1 => UIter.sliceNth it.infos m
  let start := match skipped with
    | none => 0
    | some e => e.endOff
  match infos' with
  | [] => pure (none, { it with infos := [] })
  | e :: rest =>
    let size ← VS.uncheckedSub c A.ALIGN e.endOff start
    let r ← mkRef h it.ptr start (A.dec e.rem size)
    pure (some r, { it with infos := rest, startOff := e.endOff })

/-- `last` (762–764) -/
def last (c : Cfg) (h : Heap β) (it : AIter A) : Option (Option (Ref A.ty)) :=
  match it.infos.length with
  | 0 => some none
  | n + 1 => (it.nth c h n).map (·.1)

/-- `next_back` (769–794) -/
def nextBack (c : Cfg) (h : Heap β) (it : AIter A) : Option (Option (Ref A.ty) × AIter A) :=
  match it.infos.getLast? with
  | none => some (none, it)
  | some e => do
    let rest := it.infos.dropLast
    let start := match rest.getLast? with
      | none => 0
      | some p => p.endOff
    let size ← VS.uncheckedSub c A.ALIGN e.endOff start
    let r ← mkRef h it.ptr start (A.dec e.rem size)
    pure (some r, { it with infos := rest })

/-- `nth_back`: `AlignedIter` has no method of its own (766–795). -/
def nthBack (c : Cfg) (h : Heap β) (it : AIter A) (n : Nat) : Option (Option (Ref A.ty) × AIter A) :=
  UIter.nthBackOf (nextBack c h) n it

/-- `len` / `size_hint` / `count` (722–729, 799–801) -/
def len (it : AIter A) : Nat := it.infos.length

end AIter

namespace AVec
variable {A : ATy} {β : Type} [Inhabited β]

/-- `iter` / `iter_mut` (621–636) -/
def iter (v : AVec A β) : AIter A := ⟨v.elems, v.ptr, 0⟩

/-! ## Drop (75–112) -/

/-- `wide_ptr.drop_in_place()` -/
def dropInPlace (env : Env (Val A.ty β)) (p off : Nat) (md : A.ty.Meta) : Exec (AVec A β) Unit := do
  let v ← Exec.get
  let r ← Exec.orUb (mkRef v.heap p off md)
  let x := r.read v.heap
  Exec.modify (fun v => { v with drops := v.drops ++ [x] })
  if env.dropPanics x then Exec.panic else pure ()

/-- The loop of `drop` (83–101). -/
def dropLoop (c : Cfg) (env : Env (Val A.ty β)) (p : Nat) :
    List (Info A.R) → (start : Nat) → Exec (AVec A β) Unit
  | [], _ => pure ()
  | e :: es, start => do
    let size ← Exec.orUb (VS.uncheckedSub c A.ALIGN e.endOff start)
    let v ← Exec.get
    Exec.require (v.heap.addOk p start)
    dropInPlace env p start (A.dec e.rem size)
    dropLoop c env p es e.endOff

/-- `drop` (76–111) -/
def drop (c : Cfg) (env : Env (Val A.ty β)) : Exec (AVec A β) Unit := do
  let v ← Exec.get
  Exec.modify (fun v => { v with elems := [], elemsCap := 0 })
  dropLoop c env v.ptr v.elems 0
  let l ← Exec.orUb (layoutUnchecked c v.byteCap A.ALIGN)
  let v ← Exec.get
  let h ← Exec.orUb (v.heap.deallocate v.ptr l)
  Exec.modify (fun v => { v with heap := h })

/-! ## Capacity -/

/-- `try_reserve` / `try_reserve_exact` (157–164) -/
def tryReserve (c : Cfg) (env : Env (Val A.ty β)) (additional : Nat) : Exec (AVec A β) (Except TRE Unit) := do
  let v ← Exec.get
  match stdReserve c.infoMax v.elemsCap v.len additional env.infoGrow with
  | .error e => pure (.error e)
  | .ok cap => do
    Exec.set { v with elemsCap := cap }
    pure (.ok ())

/-- The allocation or growth inside the byte reservation (182–195): outer `none` = UB, inner `none` = failure. -/
def growStorage (c : Cfg) (env : Env (Val A.ty β)) (v : AVec A β) (newLayout : Layout) :
    Option (Option (Heap β × Nat × Nat)) :=
  if v.byteCap = 0 then some (v.heap.allocate env newLayout)
  else do
    let oldLayout ← layoutUnchecked c v.byteCap A.ALIGN
    v.heap.grow env v.ptr oldLayout newLayout

/-- `try_reserve_additional_bytes_align` (167–205) -/
def tryReserveAdditionalBytes (c : Cfg) (env : Env (Val A.ty β)) (additionalBytes : Nat) :
    Exec (AVec A β) (Except TRE Unit) := do
  let v ← Exec.get
  let oldCap := v.byteCap
  if additionalBytes > 0 then
    match (checkedAdd c oldCap additionalBytes).bind (VS.new c A.ALIGN) with
    | none => pure (.error .capacityOverflow)
    | some newCap => do
      let newLayout ← Exec.orUb (layoutUnchecked c newCap A.ALIGN)
      match ← Exec.orUb (v.growStorage c env newLayout) with
      | none => pure (.error .allocError)
      | some (h, addr, granted) => do
        Exec.modify (fun v => { v with ptr := addr, byteCap := VS.newSquished c A.ALIGN granted, heap := h })
        pure (.ok ())
  else pure (.ok ())

/-- `elems_info.shrink_to(capacity)` (214); an allocation failure aborts. -/
def shrinkInfos (env : Env (Val A.ty β)) (minCap : Nat) : Exec (AVec A β) Unit := do
  let v ← Exec.get
  if stdShrinkTo v.elemsCap v.len minCap < v.elemsCap ∧ env.infoShrink = false then Exec.abort
  else Exec.set { v with elemsCap := stdShrinkTo v.elemsCap v.len minCap }

/-- `shrink_capacity_bytes_align_to` (208–240) -/
def shrinkTo (c : Cfg) (env : Env (Val A.ty β)) (minCap byteCapacity : Nat) : Exec (AVec A β) Unit := do
  shrinkInfos env minCap
  let v ← Exec.get
  let newCap := max v.byteLen byteCapacity
  if newCap < v.byteCap then do
    let newCap ← Exec.orUb (VS.newUnchecked c A.ALIGN newCap)
    let oldLayout ← Exec.orUb (layoutUnchecked c v.byteCap A.ALIGN)
    if newCap = 0 then do
      let h ← Exec.orUb (v.heap.deallocate v.ptr oldLayout)
      Exec.set { v with heap := h, ptr := A.ALIGN, byteCap := 0 }
    else do
      let newLayout ← Exec.orUb (layoutUnchecked c newCap A.ALIGN)
      match ← Exec.orUb (v.heap.shrink env v.ptr oldLayout newLayout) with
      | none => pure ()
      | some (h, addr, granted) =>
        Exec.set { v with ptr := addr, byteCap := VS.newSquished c A.ALIGN granted, heap := h }
  else pure ()

/-! ## Adding elements -/

/-- `elems_info.insert_unchecked(index, info, ())` (sized.rs:95–107) as an operation on the list of records. -/
def infoInsert (index : Nat) (info : Info A.R) : Exec (AVec A β) Unit := do
  let v ← Exec.get
  Exec.require (v.elems.length < v.elemsCap ∧ index ≤ v.elems.length)
  Exec.set { v with elems := v.elems.take index ++ info :: v.elems.drop index }

/-- `elems_info.push_unchecked(info, ())` (sized.rs:227–236) -/
def infoPush (info : Info A.R) : Exec (AVec A β) Unit := do
  let v ← Exec.get
  Exec.require (v.elems.length < v.elemsCap)
  Exec.set { v with elems := v.elems ++ [info] }

/-- `for ElementInfo { end_offset, .. } in elems { *end_offset = end_offset.unchecked_add(by) }` -/
def bumpInfos {R : Type} (c : Cfg) (a by_ : Nat) : List (Info R) → Option (List (Info R))
  | [] => some []
  | e :: es => do
    let o ← VS.uncheckedAdd c a e.endOff by_
    let es' ← bumpInfos c a by_ es
    pure ({ e with endOff := o } :: es')

/-- `for ElementInfo { end_offset, .. } in elems { *end_offset = end_offset.unchecked_sub(by) }` -/
def unbumpInfos {R : Type} (c : Cfg) (a by_ : Nat) : List (Info R) → Option (List (Info R))
  | [] => some []
  | e :: es => do
    let o ← VS.uncheckedSub c a e.endOff by_
    let es' ← unbumpInfos c a by_ es
    pure ({ e with endOff := o } :: es')

/-- Apply an offset adjustment to the records from `index` on (`elems_info.get_unchecked_mut(index..)`). -/
def adjustFrom (index : Nat) (f : List (Info A.R) → Option (List (Info A.R))) : Exec (AVec A β) Unit := do
  let v ← Exec.get
  Exec.require (index ≤ v.elems.length)
  let es ← Exec.orUb (f (v.elems.drop index))
  Exec.set { v with elems := v.elems.take index ++ es }

/-- `ptr::copy` inside the element storage, relative to pointer `p`. -/
def memmove (p src dst n : Nat) : Exec (AVec A β) Unit := do
  let v ← Exec.get
  let h ← Exec.orUb (v.heap.copy p src dst n)
  Exec.set { v with heap := h }

/-- `ptr::copy_nonoverlapping` into the element storage. -/
def memwrite (p dst : Nat) (bs : List β) : Exec (AVec A β) Unit := do
  let v ← Exec.get
  let h ← Exec.orUb (v.heap.write p dst bs)
  Exec.set { v with heap := h }

/-- `insert_unchecked` (242–279). The pointer is advanced by `index` (254), not by `start_offset`. -/
def insertUnchecked (c : Cfg) (index : Nat) (x : Val A.ty β) : Exec (AVec A β) Unit := do
  let v ← Exec.get
  let size ← Exec.orUb (VS.newUnchecked c A.ALIGN x.size)
  Exec.debugAssert c.debug (v.elemsCap > v.len)
  Exec.debugAssert c.debug (v.byteCap ≥ v.byteLen + size)
  let start ← Exec.orUb (v.startOffset index)
  let toMove ← Exec.orUb (VS.uncheckedSub c A.ALIGN v.byteLen start)
  Exec.require (v.heap.addOk v.ptr index ∧ v.heap.addOk v.ptr (index + size))
  memmove v.ptr index (index + size) toMove
  memwrite v.ptr index x.bytes
  adjustFrom index (bumpInfos c A.ALIGN size)
  let e ← Exec.orUb (VS.uncheckedAdd c A.ALIGN start size)
  infoInsert index ⟨A.enc x.md, e⟩

/-- `push_unchecked` (470–494) -/
def pushUnchecked (c : Cfg) (x : Val A.ty β) : Exec (AVec A β) Unit := do
  let v ← Exec.get
  let size ← Exec.orUb (VS.newUnchecked c A.ALIGN x.size)
  Exec.debugAssert c.debug (v.elemsCap - v.len > 0)
  Exec.debugAssert c.debug (v.byteCap ≥ v.byteLen + size)
  let start := v.byteLen
  memwrite v.ptr start x.bytes
  let e ← Exec.orUb (VS.uncheckedAdd c A.ALIGN start size)
  infoPush ⟨A.enc x.md, e⟩

/-- The reservation at the start of the emplacer closures of `push_with` and `insert_with` (320–323, 506–509). -/
def reserveForEmplace (c : Cfg) (env : Env (Val A.ty β)) (l : Layout) : Exec (AVec A β) Unit := do
  match ← tryReserve c env 1 with
  | .error e => unwrapReserve (.error e)
  | .ok () => do
    let r ← tryReserveAdditionalBytes c env l.size
    unwrapReserve r

/-- The emplacer closure of `push_with` (499–528). -/
def pushWith (c : Cfg) (env : Env (Val A.ty β)) : Emplacer (AVec A β) A.ty β := fun layout md => do
  let size ← Exec.orUb (VS.newUnchecked c A.ALIGN layout.size)
  reserveForEmplace c env layout
  let v ← Exec.get
  let start := v.byteLen
  Exec.require (v.heap.addOk v.ptr start)
  pure (.place
    (fun bs => do
      Exec.require (bs.length ≤ layout.size)
      memwrite v.ptr start bs)
    (do
      let e ← Exec.orUb (VS.uncheckedAdd c A.ALIGN start size)
      infoPush ⟨A.enc md, e⟩)
    (pure ()))

/-- The emplacer closure of `insert_with_unchecked` (281–381), with the drop guard `ElementShifterBacker`. The `debug_assert!` in front of
it (309) repeats the check of the only caller, `insert_with` (src/lib.rs:845–854). -/
def insertWithUnchecked (c : Cfg) (env : Env (Val A.ty β)) (index : Nat) : Emplacer (AVec A β) A.ty β :=
  fun layout md => do
  let size ← Exec.orUb (VS.newUnchecked c A.ALIGN layout.size)
  reserveForEmplace c env layout
  let v ← Exec.get
  let start ← Exec.orUb (v.startOffset index)
  Exec.require (v.heap.addOk v.ptr start)
  let toShift ← Exec.orUb (VS.uncheckedSub c A.ALIGN v.byteLen start)
  Exec.require (v.heap.addOk v.ptr (start + size))
  memmove v.ptr start (start + size) toShift
  pure (.place
    (fun bs => do
      Exec.require (bs.length ≤ layout.size)
      memwrite v.ptr start bs)
    (do
      adjustFrom index (bumpInfos c A.ALIGN size)
      let e ← Exec.orUb (VS.uncheckedAdd c A.ALIGN start size)
      infoInsert index ⟨A.enc md, e⟩)
    (memmove v.ptr (start + size) start toShift))

/-! ## Removing elements -/

/-- The inner closure of `pop_into` / `remove_into` called with a non-null pointer: copy `n` bytes out. -/
def copyOut (p off n : Nat) (v : AVec A β) : WriteRes (AVec A β) β :=
  match v.heap.read p off n with
  | some bs => .done bs v
  | none => .ub

/-- `pop_into_unchecked` (536–588) -/
def popIntoUnchecked (c : Cfg) (env : Env (Val A.ty β)) : Exec (AVec A β) (Started (AVec A β) A.ty β) := do
  let v ← Exec.get
  Exec.debugAssert c.debug (v.elems ≠ [])
  let last ← Exec.orUb v.elems.getLast?
  Exec.modify (fun v => { v with elems := v.elems.dropLast })
  let v ← Exec.get
  let start := v.byteLen
  let size ← Exec.orUb (VS.uncheckedSub c A.ALIGN last.endOff start)
  let md := A.dec last.rem size
  Exec.require (v.heap.addOk v.ptr start)
  let layout ← Exec.orUb (layoutUnchecked c size A.ALIGN)
  pure
    { layout := layout
      md := md
      write := copyOut v.ptr start size
      dropVal := dropInPlace env v.ptr start md
      finish := pure () }

/-- `remove_into_unchecked` (383–468) -/
def removeIntoUnchecked (c : Cfg) (env : Env (Val A.ty β)) (index : Nat) :
    Exec (AVec A β) (Started (AVec A β) A.ty β) := do
  let v ← Exec.get
  Exec.debugAssert c.debug (index < v.len)
  let info ← Exec.orUb v.elems[index]?
  let start ← Exec.orUb (v.startOffset index)
  let size ← Exec.orUb (VS.uncheckedSub c A.ALIGN info.endOff start)
  let md := A.dec info.rem size
  Exec.require (v.heap.addOk v.ptr start)
  let layout ← Exec.orUb (layoutUnchecked c size A.ALIGN)
  pure
    { layout := layout
      md := md
      write := copyOut v.ptr start size
      dropVal := dropInPlace env v.ptr start md
      finish := do
        -- `Vec::remove` panics if out of range
        let v ← Exec.get
        Exec.assert (index < v.elems.length)
        Exec.set { v with elems := v.elems.eraseIdx index }
        adjustFrom index (unbumpInfos c A.ALIGN size)
        let v ← Exec.get
        let toMove ← Exec.orUb (VS.uncheckedSub c A.ALIGN v.byteLen start)
        Exec.require (v.heap.addOk v.ptr (start + size))
        memmove v.ptr (start + size) start toMove }

/-! ## Access -/

/-- `get_unchecked_raw(index)` followed by `as_ref`/`as_mut` (596–618, lib.rs:1102–1123) -/
def getUnchecked (c : Cfg) (v : AVec A β) (index : Nat) : Option (Ref A.ty) := do
  let start ← v.startOffset index
  let info ← v.elems[index]?
  let size ← VS.uncheckedSub c A.ALIGN info.endOff start
  mkRef v.heap v.ptr start (A.dec info.rem size)

/-- `from_sized` (639–677): `md` is the metadata of the unsizing coercion `S → T`. The end offset of element
`index` is computed as `index * size_of::<S>()` (664). -/
def fromSized (c : Cfg) (r : RawVec β) (md : A.ty.Meta) : Option (AVec A β) := do
  let bc ← uncheckedMul c r.cap r.elemSize
  let bc ← VS.newUnchecked c A.ALIGN bc
  let es ← (List.range r.len).mapM (fun index => do
    let m ← uncheckedMul c index r.elemSize
    let o ← VS.newUnchecked c A.ALIGN m
    pure (⟨A.enc md, o⟩ : Info A.R))
  pure ⟨r.ptr, bc, es, r.len, r.heap, []⟩

end AVec
end Verif
