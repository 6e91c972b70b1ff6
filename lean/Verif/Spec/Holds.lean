import Verif.Spec.Basic
import Verif.Model.Api

/-!
# The abstraction relations

`Holds c v xs`: the concrete vector `v` represents the list of values `xs`. These relations connect the memory
contents of a vector with the list; `C06_*` shows that they determine everything a user can observe.
-/

namespace Verif

/-- The environment refuses what an operation has to ask for: that the element-info `Vec` grows to `n` records, or the
memory block `l`. -/
def Env.Refuses {X : Type} (e : Env X) (n : Nat) (l : Layout) : Prop :=
  (∃ err, e.infoGrow n = .error err) ∨ e.alloc l = none

/-- The representation invariant for dynamically aligned elements: element `i` starts at the sum of the sizes of the
elements before it, each rounded up to the alignment of the vector. The comment at `byte_capacity` (unaligned.rs:50–52) wants it to be
a multiple of the alignment; shrinking does not keep to that (C20), so that this is required only if `mult` holds. -/
structure UVec.Represents {T : UTy} {β : Type} (mult : Prop) (c : Cfg) (v : UVec T β) (xs : List (Val T β)) : Prop where
  wf : ∀ x ∈ xs, x.WF c
  al : IsAlign c v.align
  elemAl : ∀ x ∈ xs, x.align ∣ v.align
  infos : v.elems = infosFrom id (padTo v.align) 0 xs
  recs : xs.length ≤ v.elemsCap
  cap : totalWidth (padTo v.align) xs ≤ v.byteCap
  capDvd : mult → v.align ∣ v.byteCap
  room : v.byteCap + (v.align - 1) ≤ c.isizeMax
  mem : MemAt v.heap.mem (padTo v.align) 0 xs
  block : BlockOk v.heap v.ptr v.byteCap v.align
  leaks : v.heap.leaks = 0

/-- The vector represents the list, and its byte capacity is a multiple of its alignment. -/
abbrev UVec.Holds {T : UTy} {β : Type} (c : Cfg) (v : UVec T β) (xs : List (Val T β)) : Prop := v.Represents True c xs

/-- As `Holds`, except that the byte capacity need not be a multiple of the alignment. -/
abbrev UVec.Stores {T : UTy} {β : Type} (c : Cfg) (v : UVec T β) (xs : List (Val T β)) : Prop := v.Represents False c xs

/-- The metadata can be recovered from the stored remainder and the size (helper.rs:7–75). -/
def ATy.Keeps (A : ATy) (md : A.ty.Meta) : Prop := A.dec (A.enc md) (A.ty.sizeOf md) = md

/-- What the code relies on for a statically aligned type: all values have the same alignment, `ALIGN` (marker.rs:11–24) is a multiple
of it, every size is small enough for the alignment `ALIGN`, and what is recovered from the stored remainder and the size
(helper.rs:7–75) has the same size and the same remainder. -/
structure ATy.Fits (c : Cfg) (A : ATy) : Prop where
  al : IsAlign c A.ALIGN
  same : ∀ md md', A.ty.alignOf md = A.ty.alignOf md'
  dvd : ∀ md, A.ty.alignOf md ∣ A.ALIGN
  room : ∀ md, A.ty.alignOf md ∣ A.ty.sizeOf md → A.ty.sizeOf md + (A.ty.alignOf md - 1) ≤ c.isizeMax →
    A.ty.sizeOf md + (A.ALIGN - 1) ≤ c.isizeMax
  size : ∀ md, A.ty.sizeOf (A.dec (A.enc md) (A.ty.sizeOf md)) = A.ty.sizeOf md
  rem : ∀ md, A.enc (A.dec (A.enc md) (A.ty.sizeOf md)) = A.enc md

/-- A type all of whose metadata can be recovered: every type but slices of zero-sized elements, which lose their length
(`C28_counterexample`). -/
structure ATy.Lawful (c : Cfg) (A : ATy) : Prop where
  al : IsAlign c A.ALIGN
  same : ∀ md md', A.ty.alignOf md = A.ty.alignOf md'
  dvd : ∀ md, A.ty.alignOf md ∣ A.ALIGN
  room : ∀ md, A.ty.alignOf md ∣ A.ty.sizeOf md → A.ty.sizeOf md + (A.ty.alignOf md - 1) ≤ c.isizeMax →
    A.ty.sizeOf md + (A.ALIGN - 1) ≤ c.isizeMax
  keeps : ∀ md, A.Keeps md

theorem ATy.Lawful.fits {c : Cfg} {A : ATy} (h : A.Lawful c) : A.Fits c where
  al := h.al
  same := h.same
  dvd := h.dvd
  room := h.room
  size md := congrArg A.ty.sizeOf (h.keeps md)
  rem md := congrArg A.enc (h.keeps md)

/-- The safety contract of the trait `Aligned` (marker.rs:11–16): `ALIGN` is the alignment of all values. It holds for slices and for
`str`; for `CStr` it does not (`C60_cstr_contract`). -/
def ATy.Exact (A : ATy) : Prop := ∀ md, A.ty.alignOf md = A.ALIGN

theorem ATy.Exact.fits {c : Cfg} {A : ATy} (h : A.Exact) (al : IsAlign c A.ALIGN)
    (size : ∀ md, A.ty.sizeOf (A.dec (A.enc md) (A.ty.sizeOf md)) = A.ty.sizeOf md)
    (rem : ∀ md, A.enc (A.dec (A.enc md) (A.ty.sizeOf md)) = A.enc md) : A.Fits c where
  al := al
  same md md' := (h md).trans (h md').symm
  dvd md := by rw [h md]; exact Nat.dvd_refl _
  room md _ h1 := by rw [← h md]; exact h1
  size := size
  rem := rem

theorem ATy.Exact.lawful {c : Cfg} {A : ATy} (h : A.Exact) (al : IsAlign c A.ALIGN) (keeps : ∀ md, A.Keeps md) : A.Lawful c where
  al := al
  same md md' := (h md).trans (h md').symm
  dvd md := by rw [h md]; exact Nat.dvd_refl _
  room md _ h1 := by rw [← h md]; exact h1
  keeps := keeps

/-- What becomes of a value in a vector: its metadata is the one that can be recovered. -/
def ATy.stored (A : ATy) {β : Type} (x : Val A.ty β) : Val A.ty β := ⟨A.dec (A.enc x.md) x.size, x.bytes⟩

theorem ATy.stored_of_keeps {A : ATy} {β : Type} {x : Val A.ty β} (h : A.Keeps x.md) : A.stored x = x := by
  cases x with
  | mk md bs => exact congrArg (Val.mk · bs) h

theorem ATy.Lawful.stored {c : Cfg} {A : ATy} (h : A.Lawful c) {β : Type} (x : Val A.ty β) : A.stored x = x :=
  ATy.stored_of_keeps (h.keeps x.md)

/-- The representation invariant for statically aligned elements: they are stored without gaps. -/
structure AVec.Holds {A : ATy} {β : Type} (c : Cfg) (v : AVec A β) (xs : List (Val A.ty β)) : Prop where
  wf : ∀ x ∈ xs, x.WF c
  keeps : ∀ x ∈ xs, A.Keeps x.md
  infos : v.elems = infosFrom A.enc id 0 xs
  recs : xs.length ≤ v.elemsCap
  cap : totalWidth id xs ≤ v.byteCap
  capMax : v.byteCap ≤ VS.max c A.ALIGN
  mem : MemAt v.heap.mem id 0 xs
  block : BlockOk v.heap v.ptr v.byteCap A.ALIGN
  leaks : v.heap.leaks = 0

end Verif
