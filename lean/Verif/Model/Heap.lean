import Verif.Model.Exec
import Verif.Model.Arith

/-!
# Memory, the allocator, and values

The storage of one vector: at most one live allocation, addressed by offset from its first byte.
`β` is the type of a byte; `default : β` stands for an uninitialised byte.
-/

namespace Verif

/-- An unsized Rust type: what can be computed from its pointer metadata. -/
structure UTy where
  /-- `<T as Pointee>::Metadata` -/
  Meta : Type
  /-- `size_of_val`, as a function of the metadata -/
  sizeOf : Meta → Nat
  /-- `align_of_val`, as a function of the metadata -/
  alignOf : Meta → Nat

/-- A value of an unsized type: its metadata and its bytes. -/
structure Val (T : UTy) (β : Type) where
  md : T.Meta
  bytes : List β

namespace Val
variable {T : UTy} {β : Type}
def size (x : Val T β) : Nat := T.sizeOf x.md
def align (x : Val T β) : Nat := T.alignOf x.md
end Val

/-- What Rust guarantees about every value: it has as many bytes as its metadata says, the alignment is a
power of two, the size is a multiple of it and at most `isize::MAX` when rounded up. -/
structure Val.WF {T : UTy} {β : Type} (c : Cfg) (x : Val T β) : Prop where
  bytes_len : x.bytes.length = x.size
  align_pow : ∃ k, k < c.bits ∧ x.align = 2 ^ k
  align_dvd : x.align ∣ x.size
  size_le : x.size + (x.align - 1) ≤ c.isizeMax

/-- A live allocation (ghost state): where it is and the layout it was requested with. -/
structure Block where
  addr : Nat
  /-- size requested from the allocator -/
  reqSize : Nat
  /-- size of the slice the allocator returned -/
  granted : Nat
  align : Nat
  deriving DecidableEq, Repr

/-- The element storage of one vector. -/
structure Heap (β : Type) where
  mem : Nat → β
  /-- the live allocation, if any -/
  block : Option Block
  /-- number of allocations that became unreachable without being freed -/
  leaks : Nat

/-- Error of the reservation methods (`TryReserveErrorKind`). -/
inductive TRE where
  | capacityOverflow
  | allocError
  deriving DecidableEq, Repr

/-- The environment of one call: how the allocator answers, and which destructors panic. -/
structure Env (X : Type) where
  /-- answer of the global allocator to a request: an address and a number of extra bytes, or failure -/
  alloc : Layout → Option (Nat × Nat)
  /-- answer of the growth request of the element-info `Vec`, given the required capacity: extra slots or failure -/
  infoGrow : Nat → Except TRE Nat
  /-- does shrinking the element-info `Vec` succeed (otherwise `Vec::shrink_to` aborts) -/
  infoShrink : Bool
  /-- does the destructor of this value panic -/
  dropPanics : X → Bool

/-- The allocator contract: addresses are non-null multiples of the requested alignment. -/
def Env.Valid {X : Type} (e : Env X) : Prop :=
  ∀ l p x, 0 < l.align → e.alloc l = some (p, x) → 0 < p ∧ l.align ∣ p

/-- `alloc::Global` returns slices of exactly the requested size. -/
def Env.Exact {X : Type} (e : Env X) : Prop :=
  ∀ l p x, e.alloc l = some (p, x) → x = 0

namespace Heap
variable {β : Type} [Inhabited β]

/-- An empty heap: no live allocation. -/
def empty : Heap β := ⟨fun _ => default, none, 0⟩

/-- The number of bytes that may be accessed through pointer `p`. -/
def span (h : Heap β) (p : Nat) : Nat :=
  match h.block with
  | some b => if p = b.addr then b.granted else 0
  | none => 0

/-- `p.add(off)` stays within the allocation. -/
def addOk (h : Heap β) (p off : Nat) : Prop := off ≤ h.span p

instance (h : Heap β) (p off : Nat) : Decidable (h.addOk p off) := inferInstanceAs (Decidable (_ ≤ _))

/-- `ptr::copy(p.add(src), p.add(dst), n)` (memmove); `none` = UB. -/
def copy (h : Heap β) (p src dst n : Nat) : Option (Heap β) :=
  if h.addOk p src ∧ h.addOk p dst ∧ src + n ≤ h.span p ∧ dst + n ≤ h.span p then
    some { h with mem := fun i => if dst ≤ i ∧ i < dst + n then h.mem (src + (i - dst)) else h.mem i }
  else none

/-- `ptr::copy_nonoverlapping(source, p.add(dst), bs.len())` from memory outside the vector; `none` = UB. -/
def write (h : Heap β) (p dst : Nat) (bs : List β) : Option (Heap β) :=
  if h.addOk p dst ∧ dst + bs.length ≤ h.span p then
    some { h with mem := fun i => if dst ≤ i ∧ i < dst + bs.length then bs.getD (i - dst) default else h.mem i }
  else none

/-- The `n` bytes starting at offset `off`. -/
def bytesAt (h : Heap β) (off n : Nat) : List β := (List.range n).map (fun i => h.mem (off + i))

/-- `ptr::copy_nonoverlapping(p.add(off), out, n)` to memory outside the vector; `none` = UB. -/
def read (h : Heap β) (p off n : Nat) : Option (List β) :=
  if h.addOk p off ∧ off + n ≤ h.span p then some (h.bytesAt off n) else none

/-- Does `l` fit the live block at `p` (contract of `Allocator`: same alignment, size between the requested and
the granted size). -/
def fits (h : Heap β) (p : Nat) (l : Layout) : Prop :=
  match h.block with
  | some b => p = b.addr ∧ l.align = b.align ∧ b.reqSize ≤ l.size ∧ l.size ≤ b.granted
  | none => False

instance (h : Heap β) (p : Nat) (l : Layout) : Decidable (h.fits p l) := by
  unfold fits; cases h.block <;> infer_instance

/-- The heap after a successful allocation: a fresh block. -/
def fresh (m : Nat → β) (l : Layout) (r : Nat × Nat) (leaks : Nat) : Heap β :=
  ⟨m, some ⟨r.1, l.size, l.size + r.2, l.align⟩, leaks⟩

/-- `Global.allocate(l)`; `none` = `Err(AllocError)`. The result is the new heap, the address and the length of
the returned slice. A block that was live before is no longer reachable: it leaks. -/
def allocate {X : Type} (env : Env X) (h : Heap β) (l : Layout) : Option (Heap β × Nat × Nat) :=
  match env.alloc l with
  | none => none
  | some r => some (fresh (fun _ => default) l r (h.leaks + if h.block.isSome then 1 else 0), r.1, l.size + r.2)

/-- `Global.grow(p, old, new)`; outer `none` = UB, inner `none` = `Err(AllocError)`. The first `old.size` bytes
are preserved. -/
def grow {X : Type} (env : Env X) (h : Heap β) (p : Nat) (old new : Layout) : Option (Option (Heap β × Nat × Nat)) :=
  if h.fits p old ∧ old.size ≤ new.size then
    match env.alloc new with
    | none => some none
    | some r => some (some (fresh (fun i => if i < old.size then h.mem i else default) new r h.leaks, r.1, new.size + r.2))
  else none

/-- `Global.shrink(p, old, new)`; outer `none` = UB, inner `none` = `Err(AllocError)`. The first `new.size` bytes
are preserved. -/
def shrink {X : Type} (env : Env X) (h : Heap β) (p : Nat) (old new : Layout) : Option (Option (Heap β × Nat × Nat)) :=
  if h.fits p old ∧ new.size ≤ old.size then
    match env.alloc new with
    | none => some none
    | some r => some (some (fresh (fun i => if i < new.size then h.mem i else default) new r h.leaks, r.1, new.size + r.2))
  else none

/-- `Global.deallocate(p, l)`: a no-op for size zero, otherwise the layout must fit; `none` = UB. -/
def deallocate (h : Heap β) (p : Nat) (l : Layout) : Option (Heap β) :=
  if l.size = 0 then some h
  else if h.fits p l then some { h with block := none } else none

end Heap

/-- A reference into the storage of a vector. -/
structure Ref (T : UTy) where
  /-- base pointer of the vector -/
  base : Nat
  /-- offset of the element -/
  off : Nat
  md : T.Meta

/-- `& *wide_ptr` for the wide pointer made of `p.add(off)` and `md`: UB (`none`) unless the referent is in
bounds and the address is a multiple of the alignment. -/
def mkRef {T : UTy} {β : Type} [Inhabited β] (h : Heap β) (p off : Nat) (md : T.Meta) : Option (Ref T) :=
  if h.addOk p off ∧ off + T.sizeOf md ≤ h.span p ∧ (p + off) % T.alignOf md = 0 then
    some ⟨p, off, md⟩
  else none

/-- The value seen through a reference. -/
def Ref.read {T : UTy} {β : Type} [Inhabited β] (h : Heap β) (r : Ref T) : Val T β :=
  ⟨r.md, h.bytesAt r.off (T.sizeOf r.md)⟩

/-- `*r = value` through a mutable reference: the bytes of the referent are replaced, the metadata stays; `none` = UB. -/
def Ref.store {T : UTy} {β : Type} [Inhabited β] (h : Heap β) (r : Ref T) (bs : List β) : Option (Heap β) :=
  if bs.length = T.sizeOf r.md then h.write r.base r.off bs else none

/-- One record of `elems_info`: metadata remainder and end offset. -/
structure Info (R : Type) where
  rem : R
  endOff : Nat
  deriving DecidableEq, Repr

/-- The end offset of the last record, or zero (`unaligned.rs:63–67`, `aligned.rs:52–56`). -/
def lastEnd {R : Type} (l : List (Info R)) : Nat :=
  match l.getLast? with
  | some e => e.endOff
  | none => 0

/-- `Vec::try_reserve(add)` of a `Vec` with capacity `cap`, length `len` and at most `maxCap` elements: no-op if
there is room, otherwise growth to at least `len + add` (how much more is the allocator's choice) or an error. -/
def stdReserve (maxCap cap len add : Nat) (grow : Nat → Except TRE Nat) : Except TRE Nat :=
  if add ≤ cap - len then .ok cap
  else if maxCap < len + add then .error .capacityOverflow
  else match grow (len + add) with
    | .error e => .error e
    | .ok extra => .ok (min (len + add + extra) maxCap)

/-- `Vec::shrink_to(min)`: capacity becomes `max len min` if that is smaller. -/
def stdShrinkTo (cap len min : Nat) : Nat := if cap > min then max len min else cap

/-- `unwrap_try_reserve_result` (lib.rs:127–145). -/
def unwrapReserve {σ : Type} (r : Except TRE Unit) : Exec σ Unit :=
  match r with
  | .ok () => pure ()
  | .error .capacityOverflow => Exec.panic
  | .error .allocError => Exec.abort

end Verif
