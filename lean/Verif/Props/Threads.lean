import Verif.Spec.Threads

/-!
# C71: vectors go to other threads, and stand for other vectors, if their elements may

What must not be possible is not possible: the auto traits and the variance that the compiler derives from the fields are sound, for all types of
elements. In the other direction the claim fails for unsized types: these vectors contain a `NonNull`, and there is no `impl Send`.
-/

namespace Verif

/-- C71, safety: a vector or an iterator that can be sent to another thread has elements with which this is allowed. -/
theorem C71_send_partial (c : Cfg) (t : RTy) (h : Handle) (elem clo : AutoTraits) (hs : ((h.ty (t.impl c)).traits elem clo).send = true) :
    h.MayMove elem := by
  generalize t.impl c = i at hs
  cases h <;> cases i <;> first | exact hs | cases hs

/-- C71, safety: the same for sharing. -/
theorem C71_sync_partial (c : Cfg) (t : RTy) (h : Handle) (elem clo : AutoTraits) (hs : ((h.ty (t.impl c)).traits elem clo).sync = true) :
    h.MayShare elem := by
  generalize t.impl c = i at hs
  cases h <;> cases i <;> first | exact hs | cases hs

/-- C71 holds for sized types: sending and sharing is possible exactly if it is allowed. -/
theorem C71_sized (c : Cfg) (size align : Nat) (h : Handle) (elem clo : AutoTraits) :
    (((h.ty ((RTy.sized size align).impl c)).traits elem clo).send = true ↔ h.MayMove elem) ∧
      (((h.ty ((RTy.sized size align).impl c)).traits elem clo).sync = true ↔ h.MayShare elem) := by
  cases h <;> exact ⟨Iff.rfl, Iff.rfl⟩

/-- C71 is false for all unsized types: neither a vector nor an iterator can be sent to another thread, or shared with one, whatever the elements
allow. -/
theorem C71_unsized_never (c : Cfg) (d : DTy) (h : Handle) (elem clo : AutoTraits) :
    ((h.ty ((RTy.unsized d).impl c)).traits elem clo).send = false ∧ ((h.ty ((RTy.unsized d).impl c)).traits elem clo).sync = false := by
  have hv : ∀ size align, (RTy.unsized d).impl c ≠ .vec size align := by
    intro size align
    unfold RTy.impl RTy.alignedImpl
    split <;> exact fun h => nomatch h
  generalize (RTy.unsized d).impl c = i at hv
  cases i with
  | vec size align => exact absurd rfl (hv size align)
  | aligned A =>
    cases h <;> simp [Handle.ty, Choice.vecTy, Choice.iterTy, Choice.iterMutTy, FieldTy.traits, FieldTy.alignedVec, FieldTy.alignedIter]
  | unaligned T =>
    cases h <;> simp [Handle.ty, Choice.vecTy, Choice.iterTy, Choice.iterMutTy, FieldTy.traits, FieldTy.unalignedVec, FieldTy.unalignedIter]

/-- In particular for `UnsizedVec<[i32]>`: the elements may be moved and read by any thread, and a `Vec<Box<[i32]>>` could be. -/
theorem C71_counterexample (c : Cfg) :
    Handle.vector.MayMove ⟨true, true⟩ ∧
      ((Handle.vector.ty ((RTy.unsized (.slice 4 4)).impl c)).traits ⟨true, true⟩ ⟨true, true⟩).send = false :=
  ⟨rfl, (C71_unsized_never c _ _ _ _).1⟩

/-- C71, safety of subtyping: a handle for elements of one type is accepted as a handle for elements of another type only if it may stand for it;
in particular, through an `UnsizedIterMut` only a value of the right type can be put into a vector. This does not depend on the wrapper in
src/lib.rs. -/
theorem C71_variance (c : Cfg) (t : RTy) (h : Handle) (le ge : Prop) :
    ((h.ty (t.impl c)).Sub le ge → h.MayStandFor le ge) ∧
    (((t.impl c).vecTy.Sub le ge → le) ∧ ((t.impl c).iterTy.Sub le ge → le) ∧ ((t.impl c).iterMutTy.Sub le ge → le ∧ ge)) := by
  refine ⟨?_, ?_⟩
  · cases h
    · exact And.left
    · exact And.left
    · exact id
  · generalize t.impl c = i
    cases i with
    | vec size align => exact ⟨id, id, id⟩
    | aligned A => exact ⟨fun h => h.2.2.2, fun h => h.1.1.1, fun h => h.1.1⟩
    | unaligned T => exact ⟨fun h => h.2.2.2.2, fun h => h.1.1.1, fun h => h.1.1⟩

/-- But not exactly if it may: unlike `Vec`, `UnsizedVec` is invariant. -/
theorem C71_invariant (c : Cfg) (t : RTy) (h : Handle) (le ge : Prop) : (h.ty (t.impl c)).Sub le ge ↔ le ∧ ge := by
  cases h <;> exact Iff.rfl

/-- An `Emplacable` can be sent and shared exactly if its closure can, and the type of its value cannot be changed. -/
theorem C71_emplacable (elem clo : AutoTraits) (le ge : Prop) :
    FieldTy.emplacable.traits elem clo = clo ∧ (FieldTy.emplacable.Sub le ge ↔ le ∧ ge) := by
  refine ⟨?_, fun h => h.2.1, fun h => ⟨trivial, h, h.symm⟩⟩
  cases clo
  simp [FieldTy.emplacable, FieldTy.traits]

/-- The hypotheses can be met, and are not always: a vector of numbers can be sent, one of `Rc`s cannot; an iterator over `Cell`s (`Send`, not
`Sync`) cannot, a mutable one can. -/
example (c : Cfg) :
    ((Handle.vector.ty ((RTy.sized 4 4).impl c)).traits ⟨true, true⟩ ⟨true, true⟩).send = true ∧
    ((Handle.vector.ty ((RTy.sized 8 8).impl c)).traits ⟨false, false⟩ ⟨true, true⟩).send = false ∧
    ((Handle.iter.ty ((RTy.sized 4 4).impl c)).traits ⟨true, false⟩ ⟨true, true⟩).send = false ∧
    ((Handle.iterMut.ty ((RTy.sized 4 4).impl c)).traits ⟨true, false⟩ ⟨true, true⟩).send = true := ⟨rfl, rfl, rfl, rfl⟩

/-- `T₁` may be a subtype of `T₂` without being the same, as `&'static str` and `&'a str`; then no vector stands for another one, though one of
the implementations alone would. -/
example (c : Cfg) : ((RTy.sized 16 8).impl c).vecTy.Sub True False ∧ ¬ (Handle.vector.ty ((RTy.sized 16 8).impl c)).Sub True False :=
  ⟨trivial, fun h => h.2⟩

end Verif
