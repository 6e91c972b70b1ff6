import Verif.Model.Select

/-!
# Auto traits and variance

Neither crate implements `Send` or `Sync` for any of its types, so these traits, and the variance of the types, follow from the fields. Here the
fields of the vectors, their iterators and `Emplacable` are transcribed, and the rules of the compiler for them.
-/

namespace Verif

/-- The types that occur in the fields, with the type of the elements `T` as a parameter. -/
inductive FieldTy where
  /-- `T` -/
  | param
  /-- the type of the closure of an `Emplacable` -/
  | closure
  /-- types without parameters that contain only numbers: `usize`, `()`, `ValidAlign` (helper/valid_align.rs:20–21) -/
  | number
  /-- `NonNull<()>` -/
  | nonNull
  /-- `PhantomData<t>` -/
  | phantom (t : FieldTy)
  /-- `fn() -> t` -/
  | giving (t : FieldTy)
  /-- `fn(&mut t)` -/
  | taking (t : FieldTy)
  /-- `Vec<t>` -/
  | vec (t : FieldTy)
  | manuallyDrop (t : FieldTy)
  /-- `core::slice::Iter<'_, t>` -/
  | sliceIter (t : FieldTy)
  /-- `core::slice::IterMut<'_, t>` -/
  | sliceIterMut (t : FieldTy)
  /-- `<t as SplitMetadata>::Remainder` (helper.rs:58–60), which has the bounds `Send + Sync` (helper.rs:32–34) -/
  | remainder (t : FieldTy)
  /-- an associated type of a trait that only this crate implements, `<t as UnsizedVecImpl>::Impl` (inner.rs:208–210); it is `is` -/
  | assoc (t is : FieldTy)
  /-- `EmplacerFn<'_, t>`, a trait object without auto traits (emplacable/src/lib.rs:1253–1254) -/
  | emplacerFn (t : FieldTy)
  /-- two fields of a struct -/
  | and (s t : FieldTy)

/-- The auto traits that a type implements. -/
structure AutoTraits where
  send : Bool
  sync : Bool

/-- Which auto traits a type implements, if `T` implements `elem` and the closure `clo`: rules of the compiler and impls of the standard
library. -/
def FieldTy.traits (elem clo : AutoTraits) : FieldTy → AutoTraits
  | param => elem
  | closure => clo
  | number => ⟨true, true⟩
  | nonNull => ⟨false, false⟩
  | phantom t => t.traits elem clo
  | giving _ => ⟨true, true⟩
  | taking _ => ⟨true, true⟩
  | vec t => t.traits elem clo
  | manuallyDrop t => t.traits elem clo
  | sliceIter t => ⟨(t.traits elem clo).sync, (t.traits elem clo).sync⟩
  | sliceIterMut t => t.traits elem clo
  | remainder _ => ⟨true, true⟩
  | assoc _ is => is.traits elem clo
  | emplacerFn _ => ⟨false, false⟩
  | and s t => ⟨(s.traits elem clo).send && (t.traits elem clo).send, (s.traits elem clo).sync && (t.traits elem clo).sync⟩

/-- When the type for one element type `T₁` is a subtype of the type for another one `T₂`; `le` says that `T₁` is a subtype of `T₂`, and `ge` that
`T₂` is one of `T₁`. Rules of the compiler: associated types and what is behind `&mut` or a trait object must be the same. -/
def FieldTy.Sub (le ge : Prop) : FieldTy → Prop
  | param => le
  | closure => True
  | number => True
  | nonNull => True
  | phantom t => t.Sub le ge
  | giving t => t.Sub le ge
  | taking t => t.Sub le ge ∧ t.Sub ge le
  | vec t => t.Sub le ge
  | manuallyDrop t => t.Sub le ge
  | sliceIter t => t.Sub le ge
  | sliceIterMut t => t.Sub le ge ∧ t.Sub ge le
  | remainder t => t.Sub le ge ∧ t.Sub ge le
  | assoc t _ => t.Sub le ge ∧ t.Sub ge le
  | emplacerFn t => t.Sub le ge ∧ t.Sub ge le
  | and s t => s.Sub le ge ∧ t.Sub le ge

namespace FieldTy

/-- `ValidSize<t>` (helper/valid_size.rs:12–13) -/
def validSize (t : FieldTy) : FieldTy := .and .number (.phantom (.giving t))

/-- `ValidSizeUnaligned` (helper/valid_size.rs:161–163) -/
def validSizeUnaligned : FieldTy := validSize .number

/-- `ElementInfo<T>` (inner/aligned.rs:23–31) -/
def alignedInfo : FieldTy := .and (.remainder .param) (validSize .param)

/-- `AlignedVecInner<T>` (inner/aligned.rs:41–46) -/
def alignedVec : FieldTy := .and .nonNull (.and (validSize .param) (.and (.manuallyDrop (.vec alignedInfo)) (.phantom .param)))

/-- `AlignedIter<'_, T>` and `AlignedIterMut<'_, T>`, which have the same fields (inner/aligned.rs:688–692, 808–809) -/
def alignedIter : FieldTy := .and (.sliceIter alignedInfo) (.and .nonNull (validSize .param))

/-- `ElementInfo<T>` (inner/unaligned.rs:26–38) -/
def unalignedInfo : FieldTy := .and (.remainder .param) validSizeUnaligned

/-- `UnalignedVecInner<T>` (inner/unaligned.rs:48–57) -/
def unalignedVec : FieldTy :=
  .and .nonNull (.and validSizeUnaligned (.and (.manuallyDrop (.vec unalignedInfo)) (.and .number (.phantom .param))))

/-- `UnalignedIter<'_, T>` and `UnalignedIterMut<'_, T>` (inner/unaligned.rs:1078–1083, 1213–1214) -/
def unalignedIter : FieldTy := .and (.sliceIter unalignedInfo) (.and .nonNull (.and validSizeUnaligned .number))

/-- `Emplacer<'_, T>` (emplacable/src/lib.rs:1272–1275) -/
def emplacer : FieldTy := .emplacerFn .param

/-- `Emplacable<T, F>` (emplacable/src/lib.rs:428–436) -/
def emplacable : FieldTy := .and (.manuallyDrop .closure) (.phantom (.taking emplacer))

end FieldTy

namespace Choice

/-- The vectors of the implementation: `UnsizedVecImpl::Impl`. -/
def vecTy : Choice → FieldTy
  | vec _ _ => .vec .param
  | aligned _ => .alignedVec
  | unaligned _ => .unalignedVec

/-- `UnsizedVecProvider::Iter` (inner/sized.rs:22–25, inner/aligned.rs:118–121, inner/unaligned.rs:350–353). -/
def iterTy : Choice → FieldTy
  | vec _ _ => .sliceIter .param
  | aligned _ => .alignedIter
  | unaligned _ => .unalignedIter

/-- `UnsizedVecProvider::IterMut` (inner/sized.rs:26–29, inner/aligned.rs:122–125, inner/unaligned.rs:354–357). -/
def iterMutTy : Choice → FieldTy
  | vec _ _ => .sliceIterMut .param
  | aligned _ => .alignedIter
  | unaligned _ => .unalignedIter

end Choice

/-- What a program can hold: a vector, or one of its iterators. -/
inductive Handle where
  | vector
  | iter
  | iterMut

/-- `UnsizedVec<T>` (src/lib.rs:248–254), `UnsizedIter<'_, T>` (1187–1193), `UnsizedIterMut<'_, T>` (1196–1202), for a type of elements that
selects the implementation `i`. -/
def Handle.ty (i : Choice) : Handle → FieldTy
  | vector => .assoc .param i.vecTy
  | iter => .assoc .param i.iterTy
  | iterMut => .assoc .param i.iterMutTy

end Verif
