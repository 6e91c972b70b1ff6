import Verif.Model.Aligned

/-!
# The implementation for sized elements

Transcription of `src/inner/sized.rs`: `UnsizedVec<T>` for `T: Sized` is a `Vec<T>`.
Memory is addressed in elements: a slot holds the bytes of one element. `Vec`'s own methods
(`try_reserve`, `try_reserve_exact`, `shrink_to`) are modelled by their documented contract
(`stdReserve`, `stdShrinkTo`).
-/

namespace Verif

/-- A sized type, as an unsized type whose metadata is `()`. -/
def sizedTy (size align : Nat) : UTy := ⟨Unit, fun _ => size, fun _ => align⟩

/-- `Vec<T>` for a `T` of size `sz` and alignment `al`, with the log of destructor runs. -/
structure SVec (sz al : Nat) (β : Type) where
  /-- slot contents -/
  mem : Nat → List β
  /-- slots allocated (not used for zero-sized types) -/
  slots : Nat
  len : Nat
  drops : List (Val (sizedTy sz al) β)
  /-- ghost: how often the allocator has been asked for memory -/
  allocs : Nat

namespace SVec
variable {sz al : Nat} {β : Type} [Inhabited β]

/-- `Vec::new()` (31–32) -/
def new : SVec sz al β := ⟨fun _ => [], 0, 0, [], 0⟩

/-- `Vec::capacity`: `usize::MAX` for zero-sized types. -/
def capacity (c : Cfg) (v : SVec sz al β) : Nat := if sz = 0 then c.usizeMax else v.slots

/-- The largest capacity a `Vec<T>` can have. -/
def maxSlots (c : Cfg) (sz : Nat) : Nat := if sz = 0 then c.usizeMax else c.isizeMax / sz

/-- `byte_capacity` (40–43); `none` = UB. -/
def byteCapacity (c : Cfg) (v : SVec sz al β) : Option Nat := uncheckedMul c (v.capacity c) sz

/-- `byte_len` (46–49); `none` = UB. -/
def byteLen (c : Cfg) (v : SVec sz al β) : Option Nat := uncheckedMul c v.len sz

/-- `try_reserve` / `try_reserve_exact` (57–64) -/
def tryReserve (c : Cfg) (env : Env (Val (sizedTy sz al) β)) (additional : Nat) :
    Exec (SVec sz al β) (Except TRE Unit) := do
  let v ← Exec.get
  match stdReserve (maxSlots c sz) (v.capacity c) v.len additional env.infoGrow with
  | .error e => pure (.error e)
  | .ok cap => do
    Exec.set (if additional ≤ v.capacity c - v.len then v
      else { v with slots := cap, allocs := v.allocs + 1 })
    pure (.ok ())

/-- `usize::div_ceil`: panics when the divisor is zero. -/
def divCeil {σ : Type} (x y : Nat) : Exec σ Nat := do
  Exec.assert (y ≠ 0)
  pure ((x + y - 1) / y)

/-- `try_reserve_additional_bytes_align` (67–78) -/
def tryReserveAdditionalBytes (c : Cfg) (env : Env (Val (sizedTy sz al) β)) (additionalBytes : Nat) :
    Exec (SVec sz al β) (Except TRE Unit) := do
  let v ← Exec.get
  let free ← Exec.orUb (uncheckedSub (v.capacity c) v.len)
  let needed ← divCeil (saturatingAdd c additionalBytes free) sz
  tryReserve c env (needed - free)

/-- `shrink_capacity_bytes_align_to` (81–92) -/
def shrinkTo (env : Env (Val (sizedTy sz al) β)) (minCap minByteCap : Nat) : Exec (SVec sz al β) Unit := do
  let d ← divCeil minByteCap sz
  let v ← Exec.get
  if stdShrinkTo v.slots v.len (max minCap d) < v.slots ∧ env.infoShrink = false then Exec.abort
  else Exec.set { v with slots := stdShrinkTo v.slots v.len (max minCap d) }

/-- `ptr::copy(ptr.add(src), ptr.add(dst), n)` in units of elements, inside the allocation. -/
def memmove (c : Cfg) (src dst n : Nat) : Exec (SVec sz al β) Unit := do
  let v ← Exec.get
  Exec.require (src + n ≤ v.capacity c ∧ dst + n ≤ v.capacity c)
  Exec.set { v with mem := fun i => if dst ≤ i ∧ i < dst + n then v.mem (src + (i - dst)) else v.mem i }

/-- Store bytes at the start of slot `i`; the rest of the slot keeps its contents. -/
def memwrite (c : Cfg) (i : Nat) (bs : List β) : Exec (SVec sz al β) Unit := do
  let v ← Exec.get
  Exec.require (i + 1 ≤ v.capacity c ∧ bs.length ≤ sz)
  Exec.set { v with mem := fun j => if j = i then bs ++ (v.mem i).drop bs.length else v.mem j }

/-- `set_len(n)`; UB unless `n ≤ capacity`. -/
def setLen (c : Cfg) (n : Nat) : Exec (SVec sz al β) Unit := do
  let v ← Exec.get
  Exec.require (n ≤ v.capacity c)
  Exec.set { v with len := n }

/-- `insert_unchecked` (95–107) -/
def insertUnchecked (c : Cfg) (index : Nat) (x : Val (sizedTy sz al) β) : Exec (SVec sz al β) Unit := do
  let v ← Exec.get
  Exec.debugAssert c.debug (v.capacity c > v.len)
  let toMove ← Exec.orUb (uncheckedSub v.len index)
  Exec.require (index ≤ v.capacity c ∧ index + 1 ≤ v.capacity c)
  memmove c index (index + 1) toMove
  memwrite c index x.bytes
  let n ← Exec.orUb (uncheckedAdd c v.len 1)
  setLen c n

/-- `push_unchecked` (227–236) -/
def pushUnchecked (c : Cfg) (x : Val (sizedTy sz al) β) : Exec (SVec sz al β) Unit := do
  let v ← Exec.get
  Exec.debugAssert c.debug (v.capacity c - v.len > 0)
  Exec.require (v.len ≤ v.capacity c)
  memwrite c v.len x.bytes
  let n ← Exec.orUb (uncheckedAdd c v.len 1)
  setLen c n

/-- The emplacer closure of `push_with` (241–252). -/
def pushWith (c : Cfg) (env : Env (Val (sizedTy sz al) β)) : Emplacer (SVec sz al β) (sizedTy sz al) β :=
  fun layout _ => do
  let r ← tryReserve c env 1
  unwrapReserve r
  let v ← Exec.get
  Exec.require (v.len ≤ v.capacity c)
  pure (.place
    (fun bs => do
      Exec.require (bs.length ≤ layout.size)
      memwrite c v.len bs)
    (do
      let v ← Exec.get
      let n ← Exec.orUb (uncheckedAdd c v.len 1)
      setLen c n)
    (pure ()))

/-- The emplacer closure of `insert_with_unchecked` (109–175), with the drop guard `ElementShifterBacker`. The `debug_assert!` in front of
it (136) repeats the check of the only caller, `insert_with` (src/lib.rs:845–854). -/
def insertWithUnchecked (c : Cfg) (env : Env (Val (sizedTy sz al) β)) (index : Nat) :
    Emplacer (SVec sz al β) (sizedTy sz al) β := fun layout _ => do
  let r ← tryReserve c env 1
  unwrapReserve r
  let v ← Exec.get
  Exec.require (index ≤ v.capacity c)
  let toShift ← Exec.orUb (uncheckedSub v.len index)
  Exec.require (index + 1 ≤ v.capacity c)
  memmove c index (index + 1) toShift
  pure (.place
    (fun bs => do
      Exec.require (bs.length ≤ layout.size)
      memwrite c index bs)
    (do
      let v ← Exec.get
      let n ← Exec.orUb (uncheckedAdd c v.len 1)
      setLen c n)
    (memmove c (index + 1) index toShift))

/-- The value in slot `i`. -/
def slot (v : SVec sz al β) (i : Nat) : Val (sizedTy sz al) β := ⟨(), v.mem i⟩

/-- The inner closure of `pop_into` / `remove_into` called with a non-null pointer: copy the element out. -/
def copyOut (c : Cfg) (i : Nat) (v : SVec sz al β) : WriteRes (SVec sz al β) β :=
  if i + 1 ≤ v.capacity c then .done (v.mem i) v else .ub

/-- `ptr.drop_in_place()` -/
def dropInPlace (c : Cfg) (env : Env (Val (sizedTy sz al) β)) (i : Nat) : Exec (SVec sz al β) Unit := do
  let v ← Exec.get
  Exec.require (i + 1 ≤ v.capacity c)
  let x := v.slot i
  Exec.modify (fun v => { v with drops := v.drops ++ [x] })
  if env.dropPanics x then Exec.panic else pure ()

/-- `pop_into_unchecked` (260–294) -/
def popIntoUnchecked (c : Cfg) (env : Env (Val (sizedTy sz al) β)) :
    Exec (SVec sz al β) (Started (SVec sz al β) (sizedTy sz al) β) := do
  let v ← Exec.get
  Exec.debugAssert c.debug (v.len ≠ 0)
  let newLen ← Exec.orUb (uncheckedSub v.len 1)
  setLen c newLen
  Exec.require (newLen ≤ v.capacity c)
  pure
    { layout := ⟨sz, al⟩
      md := ()
      write := copyOut c newLen
      dropVal := dropInPlace c env newLen
      finish := pure () }

/-- `remove_into_unchecked` (177–224) -/
def removeIntoUnchecked (c : Cfg) (env : Env (Val (sizedTy sz al) β)) (index : Nat) :
    Exec (SVec sz al β) (Started (SVec sz al β) (sizedTy sz al) β) := do
  let v ← Exec.get
  Exec.debugAssert c.debug (index < v.len)
  let newLen ← Exec.orUb (uncheckedSub v.len 1)
  setLen c newLen
  Exec.require (index ≤ v.capacity c)
  let toMove ← Exec.orUb (uncheckedSub newLen index)
  pure
    { layout := ⟨sz, al⟩
      md := ()
      write := copyOut c index
      dropVal := dropInPlace c env index
      finish := do
        Exec.require (index + 1 ≤ v.capacity c)
        memmove c (index + 1) index toMove }

/-- `get_unchecked_raw` (302–307) and `iter` (310–319): the value a reference to slot `i` shows. -/
def getUnchecked (v : SVec sz al β) (i : Nat) : Option (Val (sizedTy sz al) β) :=
  if i < v.len then some (v.slot i) else none

/-- `slice::Iter`, the iterator of a vector of sized elements: the range of slots left. -/
structure Iter where
  lo : Nat
  hi : Nat

/-- `iter` (310–319) -/
def iter (v : SVec sz al β) : Iter := ⟨0, v.len⟩

/-- `slice::Iter::next`; the result is a slot number. -/
def Iter.next (it : Iter) : Option Nat × Iter := if it.lo < it.hi then (some it.lo, ⟨it.lo + 1, it.hi⟩) else (none, it)

/-- `slice::Iter::next_back` -/
def Iter.nextBack (it : Iter) : Option Nat × Iter := if it.lo < it.hi then (some (it.hi - 1), ⟨it.lo, it.hi - 1⟩) else (none, it)

/-- `slice::Iter::nth` -/
def Iter.nth (it : Iter) (n : Nat) : Option Nat × Iter :=
  if it.lo + n < it.hi then (some (it.lo + n), ⟨it.lo + n + 1, it.hi⟩) else (none, ⟨it.hi, it.hi⟩)

/-- `slice::Iter::nth_back` -/
def Iter.nthBack (it : Iter) (n : Nat) : Option Nat × Iter :=
  if it.lo + n < it.hi then (some (it.hi - n - 1), ⟨it.lo, it.hi - n - 1⟩) else (none, ⟨it.lo, it.lo⟩)

/-- Dropping a `Vec<T>`: `drop_in_place` of the slice. If one destructor panics, the remaining elements are
still dropped, then unwinding continues; a second panic aborts. -/
def dropLoop (env : Env (Val (sizedTy sz al) β)) (panicked : Bool) : List (Val (sizedTy sz al) β) → Exec (SVec sz al β) Unit
  | [] => if panicked then Exec.panic else pure ()
  | x :: xs => do
    Exec.modify (fun v => { v with drops := v.drops ++ [x] })
    if env.dropPanics x then
      if panicked then Exec.abort else dropLoop env true xs
    else dropLoop env panicked xs

/-- `Drop for Vec<T>` (standard library contract). -/
def drop (env : Env (Val (sizedTy sz al) β)) : Exec (SVec sz al β) Unit := do
  let v ← Exec.get
  Exec.modify (fun v => { v with len := 0, slots := 0 })
  dropLoop env false ((List.range v.len).map v.slot)

end SVec
end Verif
