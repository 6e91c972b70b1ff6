import Verif.Model.Client
import Verif.Model.Owned

/-!
# Which implementation stores the elements of a type

`UnsizedVec<T>` is a newtype around `<T as UnsizedVecImpl>::Impl` (src/lib.rs:248–254). The type checker chooses this among the
implementations by specialization. Here the impl blocks that take part in the choice are transcribed, for the types of Rust as far as
their layout goes.
-/

namespace Verif

/-- The unsized types of Rust, as far as their layout goes. -/
inductive DTy where
  /-- `[S]`, for an `S` of the given size and alignment -/
  | slice (size align : Nat)
  | str
  | cstr
  /-- `dyn Trait` -/
  | dyn
  /-- a struct with an unsized last field, e.g. `Path` and `OsStr`; the other fields occupy `size` bytes and need the alignment `align` -/
  | record (size align : Nat) (last : DTy)

/-- The types of Rust, as far as their layout goes. A struct whose last field is sized is itself sized. -/
inductive RTy where
  | sized (size align : Nat)
  | unsized (d : DTy)

/-- The type of trait objects: the metadata (a pointer to the vtable) determines size and alignment. -/
def dynTy : UTy := ⟨Nat × Nat, Prod.fst, Prod.snd⟩

/-- Where the last field of a struct starts if the other ones occupy `size` bytes: at the next multiple of its alignment. -/
def recordOffset (size lastAlign : Nat) : Nat := Sink.roundUp size lastAlign

/-- The metadata, `size_of_val` and `align_of_val` of a type. For structs, see the chapter on type layout of the Rust reference: the metadata
is that of the last field. (This is not code of the repository; the vectors use it through `Layout::for_value` and the like.) -/
def DTy.ty (c : Cfg) : DTy → UTy
  | .slice size align => sliceTy size align
  | .str => sliceTy 1 1
  | .cstr => cstrTy c
  | .dyn => dynTy
  | .record size align last =>
    ⟨(last.ty c).Meta,
      fun md => Sink.roundUp (recordOffset size ((last.ty c).alignOf md) + (last.ty c).sizeOf md) (max align ((last.ty c).alignOf md)),
      fun md => max align ((last.ty c).alignOf md)⟩

def RTy.ty (c : Cfg) : RTy → UTy
  | .sized size align => sizedTy size align
  | .unsized d => d.ty c

/-- `<T as Aligned>::ALIGN`, if the trait is implemented: there are four impls (marker.rs:25–43), for sized types, slices, `str` and
`CStr`. The last one is the alignment of a reference; see `ATy.cstr`. -/
def RTy.aligned? (c : Cfg) : RTy → Option Nat
  | .sized _ align => some align
  | .unsized (.slice _ align) => some align
  | .unsized .str => some 1
  | .unsized .cstr => some c.usizeAlign
  | .unsized .dyn => none
  | .unsized (.record ..) => none

/-- `MetadataFromSize::from_size`, if the trait is implemented for an unsized type: there is one such impl (helper.rs:20–25), for slices.
(The other one, 16–18, is for sized types.) -/
def DTy.fromSize? (c : Cfg) : (d : DTy) → Option (Nat → (d.ty c).Meta)
  | .slice size _ => some fun n => (if size = 0 then 0 else n / size : Nat)
  | .str => none
  | .cstr => none
  | .dyn => none
  | .record .. => none

/-- `<T as SplitMetadata>::Remainder` (helper.rs:62–74): `()` for the types that implement `MetadataFromSize`, and by default the metadata. -/
def DTy.toATy (c : Cfg) (align : Nat) (d : DTy) : ATy :=
  match d.fromSize? c with
  | some f => ⟨d.ty c, align, Unit, fun _ => (), fun _ n => f n⟩
  | none => ATy.full (d.ty c) align

/-- The three implementations. -/
inductive Choice where
  /-- `alloc::vec::Vec<T>` (src/inner/sized.rs) -/
  | vec (size align : Nat)
  /-- `AlignedVecInner<T>` (src/inner/aligned.rs) -/
  | aligned (A : ATy)
  /-- `UnalignedVecInner<T>` (src/inner/unaligned.rs) -/
  | unaligned (T : UTy)

/-- `<T as AlignedVecImpl>::Impl`: by default `AlignedVecInner` (aligned.rs:682–684), for sized types `Vec` (sized.rs:331–333). -/
def RTy.alignedImpl (c : Cfg) (align : Nat) : RTy → Choice
  | .sized size al => .vec size al
  | .unsized d => .aligned (d.toATy c align)

/-- `<T as UnsizedVecImpl>::Impl`: by default `UnalignedVecInner` (unaligned.rs:1072–1074), for types that implement `Aligned`
`<T as AlignedVecImpl>::Impl` (inner.rs:218–220). -/
def RTy.impl (c : Cfg) (t : RTy) : Choice :=
  match t.aligned? c with
  | some align => t.alignedImpl c align
  | none => .unaligned (t.ty c)

namespace Choice

/-- The type of the elements. -/
def ty : Choice → UTy
  | vec size align => sizedTy size align
  | aligned A => A.ty
  | unaligned T => T

/-- The vectors of the implementation. -/
def Vec (β : Type) : Choice → Type
  | vec size align => SVec size align β
  | aligned A => AVec A β
  | unaligned T => UVec T β

/-- `new` (src/lib.rs:256–269). -/
def new {β : Type} [Inhabited β] (c : Cfg) : (i : Choice) → i.Vec β
  | vec _ _ => SVec.new
  | aligned _ => AVec.new
  | unaligned _ => UVec.newAlignPtr c

/-- The functions of the implementation. -/
def machine {β : Type} [Inhabited β] (c : Cfg) : (i : Choice) → Machine (i.Vec β) i.ty β
  | vec size align => sizedM c size align
  | aligned A => alignedM c A
  | unaligned T => unalignedM c T

end Choice
end Verif
