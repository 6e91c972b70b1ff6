import Verif.Model.Sized

/-!
# The public interface

Transcription of `src/lib.rs` (line numbers refer to it). `UnsizedVec<T>` is generic over the three
implementations; `Provider` is the interface trait `UnsizedVecProvider` (src/inner.rs:97–206) and every function of
`UnsizedVec` is transcribed once over it.
-/

namespace Verif

/-- `UnsizedVecProvider<T>` (inner.rs:97–206): one implementation. `V` is its state. -/
structure Provider (V : Type) (T : UTy) (β : Type) where
  newAlign1 : V
  newAlignPtr : V
  capacity : V → Nat
  /-- `none` = UB -/
  byteLen : V → Option Nat
  /-- `none` = UB -/
  byteCapacity : V → Option Nat
  align : V → Nat
  len : V → Nat
  /-- `Align::new` (inner.rs:29–48) -/
  alignNew : Nat → Option Nat
  tryReserve : Env (Val T β) → Nat → Exec V (Except TRE Unit)
  tryReserveExact : Env (Val T β) → Nat → Exec V (Except TRE Unit)
  tryReserveAdditionalBytesAlign : Env (Val T β) → Nat → Nat → Exec V (Except TRE Unit)
  shrinkTo : Env (Val T β) → Nat → Nat → Nat → Exec V Unit
  insertUnchecked : Nat → Val T β → Exec V Unit
  insertWithUnchecked : Env (Val T β) → Nat → Emplacer V T β
  removeIntoUnchecked : Env (Val T β) → Nat → Emplacable V T β
  pushUnchecked : Val T β → Exec V Unit
  pushWith : Env (Val T β) → Emplacer V T β
  popIntoUnchecked : Env (Val T β) → Emplacable V T β
  /-- `get_unchecked`: the reference, `none` = UB -/
  getUnchecked : V → Nat → Option (Ref T)

section
variable {β : Type} [Inhabited β]

/-- The implementation for dynamically aligned types. -/
def unalignedP (c : Cfg) (T : UTy) : Provider (UVec T β) T β where
  newAlign1 := UVec.newAlign1
  newAlignPtr := UVec.newAlignPtr c
  capacity v := v.elemsCap
  byteLen v := v.alignedByteLen c
  byteCapacity v := some v.byteCap
  align v := v.align
  len v := v.len
  alignNew := ValidAlign.new
  tryReserve := UVec.tryReserve c
  tryReserveExact := UVec.tryReserve c
  tryReserveAdditionalBytesAlign := UVec.tryReserveAdditionalBytesAlign c
  shrinkTo := UVec.shrinkTo c
  insertUnchecked := UVec.insertUnchecked c
  insertWithUnchecked := UVec.insertWithUnchecked c
  removeIntoUnchecked := UVec.removeIntoUnchecked c
  pushUnchecked := UVec.pushUnchecked c
  pushWith := UVec.pushWith c
  popIntoUnchecked := UVec.popIntoUnchecked c
  getUnchecked := UVec.getUnchecked c

/-- The implementation for statically aligned unsized types. The alignment argument has type `()`. -/
def alignedP (c : Cfg) (A : ATy) : Provider (AVec A β) A.ty β where
  newAlign1 := AVec.new
  newAlignPtr := AVec.new
  capacity v := v.elemsCap
  byteLen v := some v.byteLen
  byteCapacity v := some v.byteCap
  align _ := A.ALIGN
  len v := v.len
  alignNew := some
  tryReserve := AVec.tryReserve c
  tryReserveExact := AVec.tryReserve c
  tryReserveAdditionalBytesAlign env b _ := AVec.tryReserveAdditionalBytes c env b
  shrinkTo env n b _ := AVec.shrinkTo c env n b
  insertUnchecked := AVec.insertUnchecked c
  insertWithUnchecked := AVec.insertWithUnchecked c
  removeIntoUnchecked := AVec.removeIntoUnchecked c
  pushUnchecked := AVec.pushUnchecked c
  pushWith := AVec.pushWith c
  popIntoUnchecked := AVec.popIntoUnchecked c
  getUnchecked := AVec.getUnchecked c

/-- The implementation for sized types. The alignment argument has type `()`. -/
def sizedP (c : Cfg) (sz al : Nat) : Provider (SVec sz al β) (sizedTy sz al) β where
  newAlign1 := SVec.new
  newAlignPtr := SVec.new
  capacity v := v.capacity c
  byteLen v := v.byteLen c
  byteCapacity v := v.byteCapacity c
  align _ := al
  len v := v.len
  alignNew := some
  tryReserve := SVec.tryReserve c
  tryReserveExact := SVec.tryReserve c
  tryReserveAdditionalBytesAlign env b _ := SVec.tryReserveAdditionalBytes c env b
  shrinkTo env n b _ := SVec.shrinkTo env n b
  insertUnchecked := SVec.insertUnchecked c
  insertWithUnchecked := SVec.insertWithUnchecked c
  removeIntoUnchecked := SVec.removeIntoUnchecked c
  pushUnchecked := SVec.pushUnchecked c
  pushWith := SVec.pushWith c
  popIntoUnchecked := SVec.popIntoUnchecked c
  getUnchecked v i := if i < v.len then some ⟨0, i, ()⟩ else none

end

namespace Api
variable {V : Type} {T : UTy} {β : Type}

/-- `to_align` (113–125) -/
def toAlign (P : Provider V T β) (align : Nat) : Exec V Nat :=
  match P.alignNew align with
  | some a => pure a
  | none => Exec.panic

/-- `unused_byte_cap` (1170–1173) -/
def unusedByteCap (P : Provider V T β) (v : V) : Option Nat := do
  let cap ← P.byteCapacity v
  let len ← P.byteLen v
  uncheckedSub cap len

/-- `try_reserve` (497–499) -/
def tryReserve (P : Provider V T β) (env : Env (Val T β)) (additional : Nat) : Exec V (Except TRE Unit) :=
  P.tryReserve env additional

/-- `reserve` (358–360) -/
def reserve (P : Provider V T β) (env : Env (Val T β)) (additional : Nat) : Exec V Unit := do
  let r ← tryReserve P env additional
  unwrapReserve r

/-- The `debug_assert!` at 585: the byte capacity covers the request. -/
def byteCapAssert (c : Cfg) (P : Provider V T β) (additionalBytes : Nat) : Exec V Unit := do
  let v ← Exec.get
  let cap ← Exec.orUb (P.byteCapacity v)
  let len ← Exec.orUb (P.byteLen v)
  Exec.debugAssert c.debug (cap ≥ len + additionalBytes)

/-- The pessimistic attempt of `try_reserve_capacity_bytes_align` (581–587). The assertion is evaluated whether or not
the attempt succeeded. -/
def reserveNeeded (c : Cfg) (P : Provider V T β) (env : Env (Val T β)) (additionalBytes needed align : Nat) :
    Exec V (Except TRE Unit) := do
  let result ← P.tryReserveAdditionalBytesAlign env needed align
  byteCapAssert c P additionalBytes
  pure result

/-- `try_reserve_capacity_bytes_align` (547–588) -/
def tryReserveCapacityBytesAlign (c : Cfg) (P : Provider V T β) (env : Env (Val T β))
    (additional additionalBytes align : Nat) : Exec V (Except TRE Unit) := do
  match ← tryReserve P env additional with
  | .error e => pure (.error e)
  | .ok () => do
    let v ← Exec.get
    Exec.debugAssert c.debug (P.capacity v ≥ P.len v + additional)
    let a ← toAlign P align
    let byteCap ← Exec.orUb (P.byteCapacity v)
    let unused ← Exec.orUb (unusedByteCap P v)
    let needed := additionalBytes - unused
    let optimist := if needed > 0 then max needed byteCap else 0
    if optimist > needed then
      match ← P.tryReserveAdditionalBytesAlign env optimist a with
      | .ok () => pure (.ok ())
      | .error _ => reserveNeeded c P env additionalBytes needed a
    else reserveNeeded c P env additionalBytes needed a

/-- `try_reserve_capacity_bytes` (518–524) -/
def tryReserveCapacityBytes (c : Cfg) (P : Provider V T β) (env : Env (Val T β)) (additional additionalBytes : Nat) :
    Exec V (Except TRE Unit) :=
  tryReserveCapacityBytesAlign c P env additional additionalBytes 1

/-- `reserve_capacity_bytes_align` (399–410) -/
def reserveCapacityBytesAlign (c : Cfg) (P : Provider V T β) (env : Env (Val T β))
    (additional additionalBytes align : Nat) : Exec V Unit := do
  let r ← tryReserveCapacityBytesAlign c P env additional additionalBytes align
  unwrapReserve r

/-- `reserve_capacity_bytes` (378–380) -/
def reserveCapacityBytes (c : Cfg) (P : Provider V T β) (env : Env (Val T β)) (additional additionalBytes : Nat) :
    Exec V Unit := do
  let r ← tryReserveCapacityBytes c P env additional additionalBytes
  unwrapReserve r

/-- `try_reserve_exact` (605–607) -/
def tryReserveExact (P : Provider V T β) (env : Env (Val T β)) (additional : Nat) : Exec V (Except TRE Unit) :=
  P.tryReserveExact env additional

/-- `try_reserve_exact_capacity_bytes_align` (657–668) -/
def tryReserveExactCapacityBytesAlign (P : Provider V T β) (env : Env (Val T β))
    (additional additionalBytes align : Nat) : Exec V (Except TRE Unit) := do
  match ← P.tryReserve env additional with
  | .error e => pure (.error e)
  | .ok () => do
    let a ← toAlign P align
    P.tryReserveAdditionalBytesAlign env additionalBytes a

/-- `try_reserve_exact_capacity_bytes` (627–633) -/
def tryReserveExactCapacityBytes (P : Provider V T β) (env : Env (Val T β)) (additional additionalBytes : Nat) :
    Exec V (Except TRE Unit) :=
  tryReserveExactCapacityBytesAlign P env additional additionalBytes 1

/-- `reserve_exact` (426–428) -/
def reserveExact (P : Provider V T β) (env : Env (Val T β)) (additional : Nat) : Exec V Unit := do
  let r ← tryReserveExactCapacityBytes P env additional 0
  unwrapReserve r

/-- `reserve_exact_capacity_bytes` (447–451) -/
def reserveExactCapacityBytes (P : Provider V T β) (env : Env (Val T β)) (additional additionalBytes : Nat) :
    Exec V Unit := do
  let r ← tryReserveExactCapacityBytes P env additional additionalBytes
  unwrapReserve r

/-- `reserve_exact_capacity_bytes_align` (470–481) -/
def reserveExactCapacityBytesAlign (P : Provider V T β) (env : Env (Val T β))
    (additional additionalBytes align : Nat) : Exec V Unit := do
  let r ← tryReserveExactCapacityBytesAlign P env additional additionalBytes align
  unwrapReserve r

/-- `new` (265–269) -/
def new (P : Provider V T β) : V := P.newAlignPtr

/-- Run an operation on a fresh vector; a panic drops the (empty) vector. -/
def build (v : V) (m : Exec V Unit) : Res V Unit := m v

/-- `with_capacity` (278–282) -/
def withCapacity (P : Provider V T β) (env : Env (Val T β)) (capacity : Nat) : Res V Unit :=
  build (new P) (reserveExact P env capacity)

/-- `with_capacity_bytes` (292–296) -/
def withCapacityBytes (P : Provider V T β) (env : Env (Val T β)) (capacity byteCapacity : Nat) : Res V Unit :=
  build (new P) (reserveExactCapacityBytes P env capacity byteCapacity)

/-- `with_capacity_bytes_align` (304–314) -/
def withCapacityBytesAlign (P : Provider V T β) (env : Env (Val T β)) (capacity byteCapacity align : Nat) : Res V Unit :=
  build P.newAlign1 (reserveExactCapacityBytesAlign P env capacity byteCapacity align)

/-- `shrink_capacity_bytes_align_to` (731–742) -/
def shrinkCapacityBytesAlignTo (P : Provider V T β) (env : Env (Val T β)) (minCap minByteCap minAlign : Nat) :
    Exec V Unit := do
  let a ← toAlign P minAlign
  P.shrinkTo env minCap minByteCap a

/-- `shrink_to_fit` (672–675) -/
def shrinkToFit (P : Provider V T β) (env : Env (Val T β)) : Exec V Unit := do
  let a ← toAlign P 1
  P.shrinkTo env 0 0 a

/-- `shrink_to` (689–695) -/
def shrinkTo (c : Cfg) (P : Provider V T β) (env : Env (Val T β)) (minCap : Nat) : Exec V Unit := do
  let a ← toAlign P (2 ^ (c.bits - 1))
  P.shrinkTo env minCap c.usizeMax a

/-- `shrink_capacity_bytes_to` (711–717) -/
def shrinkCapacityBytesTo (c : Cfg) (P : Provider V T β) (env : Env (Val T β)) (minCap minByteCap : Nat) :
    Exec V Unit := do
  let a ← toAlign P (2 ^ (c.bits - 1))
  P.shrinkTo env minCap minByteCap a

/-- `push` (938–945). What becomes of the argument if this panics: see `Machine.giving` (Model/Client). -/
def push (c : Cfg) (P : Provider V T β) (env : Env (Val T β)) (x : Val T β) : Exec V Unit := do
  reserveCapacityBytesAlign c P env 1 x.size x.align
  P.pushUnchecked x

/-- `insert` (775–792). What becomes of the argument if this panics: see `Machine.giving` (Model/Client). -/
def insert (c : Cfg) (P : Provider V T β) (env : Env (Val T β)) (index : Nat) (x : Val T β) : Exec V Unit := do
  let v ← Exec.get
  Exec.assert (index ≤ P.len v)
  reserveCapacityBytesAlign c P env 1 x.size x.align
  P.insertUnchecked index x

/-- `push_with` (991–993): the destination side -/
def pushWith (P : Provider V T β) (env : Env (Val T β)) : Emplacer V T β := P.pushWith env

/-- `push_with` (991–993) of an emplacable with source state `σ` -/
def pushWithRun {σ : Type} (P : Provider V T β) (env : Env (Val T β)) (e : Emplacable σ T β) : Exec (σ × V) Unit :=
  run e (pushWith P env)

/-- `insert_with` (845–859): the bounds check, then the exchange. The function owns the emplacable: if the check fails, it is
dropped while unwinding. -/
def insertWithRun {σ : Type} (P : Provider V T β) (env : Env (Val T β)) (index : Nat) (e : Emplacable σ T β) :
    Exec (σ × V) Unit := do
  let st ← Exec.get
  Exec.onUnwind (Exec.assert (index ≤ P.len st.2)) (liftL (Source.drop e))
  run e (P.insertWithUnchecked env index)

/-- `remove_into` (889–908): the bounds check, then the emplacable. (Between the call and the use of the emplacable the
vector is mutably borrowed, so nothing can happen to it.) -/
def removeInto (P : Provider V T β) (env : Env (Val T β)) (index : Nat) : Exec V (Started V T β) := do
  let v ← Exec.get
  Exec.assert (index < P.len v)
  P.removeIntoUnchecked env index

/-- `pop_into` (1043–1057) -/
def popInto (P : Provider V T β) (env : Env (Val T β)) (v : V) : Option (Emplacable V T β) :=
  if P.len v ≠ 0 then some (P.popIntoUnchecked env) else none

/-- `get` / `get_mut` (1084–1101); outer `none` = UB -/
def get (P : Provider V T β) (v : V) (index : Nat) : Option (Option (Ref T)) :=
  if index < P.len v then (P.getUnchecked v index).map some else some none

/-- `Index::index` / `IndexMut::index_mut` (1218–1238) -/
def index (P : Provider V T β) (i : Nat) : Exec V (Ref T) := do
  let v ← Exec.get
  match ← Exec.orUb (get P v i) with
  | some r => pure r
  | none => Exec.panic

/-- `is_empty` (1080–1082) -/
def isEmpty (P : Provider V T β) (v : V) : Bool := P.len v == 0

end Api
end Verif
