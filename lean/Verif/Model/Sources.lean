import Verif.Model.Sinks
import Verif.Model.Sized

/-!
# Ways to make an emplacable

Transcription of `IntoEmplacable`, `Emplacable::unsize`, `Emplacable::from_iter`, `with_emplacable_for` and `box_new`
(emplacable/src/lib.rs; line numbers refer to that file).

`From<…> for Emplacable` calls `into_emplacable`. Simplification: the iterator of `from_iter` is one that owns its
items and drops those that are left when it is dropped, like `vec::IntoIter`; its `len` may be wrong.
-/

namespace Verif
namespace Source
variable {σ τ : Type} {T : UTy} {β : Type}

/-- What a source owns: the memory of its buffer; and the log of destructor runs. -/
structure St (X β : Type) where
  heap : Heap β
  drops : List X

/-- `ptr::drop_in_place`, `ManuallyDrop::drop`: the destructor may panic. -/
def dropValue {X : Type} (env : Env X) (x : X) : Exec (St X β) Unit := fun s =>
  if env.dropPanics x then .panic { s with drops := s.drops ++ [x] } else .ok () { s with drops := s.drops ++ [x] }

/-- `IntoEmplacable<T> for T` (709–740); the value is in a `ManuallyDrop`. Also the closure of `with_emplacable_for`
(310–337), where the value stays with the caller. -/
def value (env : Env (Val T β)) (x : Val T β) : Emplacable (St (Val T β) β) T β :=
  (pure
    { layout := ⟨x.size, x.align⟩
      md := x.md
      write := fun s => .done x.bytes s
      dropVal := dropValue env x
      finish := pure () } : Exec _ (Started (St (Val T β) β) T β))

/-- `IntoEmplacable` for `&str`, `&CStr`, `&OsStr`, `&Path` (815–971): the bytes are copied; there is nothing to drop. All four
types have the length in bytes as metadata. -/
def text (bs : List β) : Emplacable σ (sliceTy 1 1) β :=
  (pure
    { layout := ⟨bs.length, 1⟩
      md := (bs.length : Nat)
      write := fun s => .done bs s
      dropVal := pure ()
      finish := pure () } : Exec _ (Started σ (sliceTy 1 1) β))

/-- `CopyToBuf::copy_to_buf` for `T: Clone` (759–769): clone the elements one by one and write them. `Clone::clone` is
arbitrary code. Elements that have been written are not dropped when a later `clone` panics. -/
def cloneToBuf (sz : Nat) (clone : List β → Exec σ (List β)) : List (List β) → List β → σ → WriteRes σ β
  | [], acc, s => .done acc s
  | x :: xs, acc, s =>
    match clone x s with
    | .ok y s' => if y.length = sz then cloneToBuf sz clone xs (acc ++ y) s' else .ub
    | .panic s' => .unwind acc s'
    | .abort => .abort
    | .ub => .ub

/-- `IntoEmplacable<[T]> for &[T]` (782–804), where `T: Clone` is not `Copy`. `xs` are the bytes of the elements. -/
def cloned (sz al : Nat) (clone : List β → Exec σ (List β)) (xs : List (List β)) : Emplacable σ (sliceTy sz al) β :=
  (pure
    { layout := ⟨xs.length * sz, al⟩
      md := (xs.length : Nat)
      write := cloneToBuf sz clone xs []
      dropVal := pure ()
      finish := pure () } : Exec _ (Started σ (sliceTy sz al) β))

/-- `CopyToBuf::copy_to_buf` for `T: Copy` (771–780). The source of the copy is `addr_of!(slice)`, the address of the local
variable `slice: &[T]`, not the slice. `wide` are the bytes of that variable: a data pointer and a length. Reading beyond it
is UB. -/
def copyToBuf (sz : Nat) (wide : List β) (len : Nat) (s : σ) : WriteRes σ β :=
  if len * sz ≤ wide.length then .done (wide.take (len * sz)) s else .ub

/-- `IntoEmplacable<[T]> for &[T]` (782–804), where `T: Copy`. `wide` are the bytes of the wide pointer. -/
def copied (sz al : Nat) (wide : List β) (len : Nat) : Emplacable σ (sliceTy sz al) β :=
  (pure
    { layout := ⟨len * sz, al⟩
      md := (len : Nat)
      write := copyToBuf sz wide len
      dropVal := pure ()
      finish := pure () } : Exec _ (Started σ (sliceTy sz al) β))

/-- `IntoEmplacable<[u8]> for Emplacable<str, F>` (981–1014): the same layout, metadata and closure. -/
def strToBytes (e : Emplacable σ (sliceTy 1 1) β) : Exec σ (Started σ (sliceTy 1 1) β) := do
  let st ← (e : Exec σ (Started σ (sliceTy 1 1) β))
  pure { layout := st.layout, md := st.md, write := st.write, dropVal := st.dropVal, finish := st.finish }

/-- `Emplacable::unsize` (531–571): the emplacer gets the layout of the sized type and the metadata of the coercion. -/
def unsize (sz al : Nat) (U : UTy) (md : U.Meta) (e : Emplacable σ (sizedTy sz al) β) :
    Exec σ (Started σ U β) := do
  let st ← (e : Exec σ (Started σ (sizedTy sz al) β))
  pure { layout := ⟨sz, al⟩, md := md, write := st.write, dropVal := st.dropVal, finish := st.finish }

section
variable [Inhabited β]

/-- `alloc::dealloc(ptr, layout)` guarded by `layout.size() > 0` (1053–1056, 1110–1114) -/
def release {X : Type} (p : Nat) (l : Layout) : Exec (St X β) Unit := do
  if l.size > 0 then
    let s ← Exec.get
    let h ← Exec.orUb (s.heap.deallocate p l)
    Exec.set { s with heap := h }
  else pure ()

/-- `IntoEmplacable<T> for Box<T>` (1028–1062): the box is at `p` and its metadata is `md`. -/
def boxed (env : Env (Val T β)) (p : Nat) (md : T.Meta) : Emplacable (St (Val T β) β) T β :=
  (pure
    { layout := ⟨T.sizeOf md, T.alignOf md⟩
      md := md
      write := fun s =>
        match s.heap.read p 0 (T.sizeOf md) with
        | some bs => .done bs s
        | none => .ub
      dropVal := do
        let s ← Exec.get
        let bs ← Exec.orUb (s.heap.read p 0 (T.sizeOf md))
        dropValue env ⟨md, bs⟩
      finish := release p ⟨T.sizeOf md, T.alignOf md⟩ } : Exec _ (Started (St (Val T β) β) T β))

/-- `for elem in &mut *vec { ptr::drop_in_place(elem) }` (1101–1106) from element `i` on, `n` elements. -/
def dropElems (sz al : Nat) (env : Env (Val (sizedTy sz al) β)) (p : Nat) : Nat → Nat → Exec (St (Val (sizedTy sz al) β) β) Unit
  | _, 0 => pure ()
  | i, n + 1 => do
    let s ← Exec.get
    let bs ← Exec.orUb (s.heap.read p (i * sz) sz)
    dropValue env ⟨(), bs⟩
    dropElems sz al env p (i + 1) n

/-- `IntoEmplacable<[T]> for Vec<T>` (1073–1120): pointer, length and capacity come from the vector. -/
def vector (c : Cfg) (sz al : Nat) (env : Env (Val (sizedTy sz al) β)) (p len cap : Nat) :
    Exec (St (Val (sizedTy sz al) β) β) (Started (St (Val (sizedTy sz al) β) β) (sliceTy sz al) β) := do
  let size ← Exec.orUb (uncheckedMul c cap sz)
  let layout ← Exec.orUb (layoutUnchecked c size al)
  pure
    { layout := layout
      md := (len : Nat)
      write := fun s =>
        match s.heap.read p 0 (len * sz) with
        | some bs => .done bs s
        | none => .ub
      dropVal := dropElems sz al env p 0 len
      finish := release p layout }

end

/-- Dropping several emplacables that are owned together (an array, or what is left of an iterator): if one destructor panics the
others are still dropped; a second panic ends the process. -/
def dropAll : List (Emplacable σ T β) → Exec σ Unit
  | [] => pure ()
  | e :: es => do
    Exec.onUnwind (drop e) (dropAll es)
    dropAll es

/-- Unwinding out of the loop that writes the elements: what is left of the iterator is dropped. -/
def unwound (es : List (Emplacable σ T β)) (bytes : List β) (s : σ) : WriteRes σ β :=
  match dropAll es s with
  | .ok _ s' => .unwind bytes s'
  | .panic _ => .abort
  | .abort => .abort
  | .ub => .ub

/-- `(0..n).zip(es).for_each(…)` (621–642, 1171–1203), the end of the iterator, and the comparison of the counts (644): the
items are emplaced one after the other at multiples of their size, until `n` of them have been emplaced; the remaining ones are
dropped with the iterator. An item that writes a number of bytes other than the size of the type violates its contract. -/
def writeItems (sz : Nat) : Nat → List (Emplacable σ T β) → List β → σ → WriteRes σ β
  | 0, es, acc, s =>
    match dropAll es s with
    | .ok _ s' => .done acc s'
    | .panic s' => .unwind acc s'
    | .abort => .abort
    | .ub => .ub
  | _ + 1, [], acc, s => .unwind acc s
  | n + 1, e :: es, acc, s =>
    match (e : Exec σ (Started σ T β)) s with
    | .ub => .ub
    | .abort => .abort
    | .panic s' => unwound es acc s'
    | .ok st s1 =>
      match st.write s1 with
      | .ub => .ub
      | .abort => .abort
      | .unwind bs s' => if bs.length ≤ sz then unwound es (acc ++ bs) s' else .ub
      | .done bs s2 =>
        if bs.length = sz then
          match st.finish s2 with
          | .ub => .ub
          | .abort => .abort
          | .panic s' => unwound es (acc ++ bs) s'
          | .ok _ s' => writeItems sz n es (acc ++ bs) s'
        else .ub

/-- The type `[T; n]` for an element of the given size and alignment. -/
abbrev arrayTy (sz al n : Nat) : UTy := sizedTy (n * sz) al

/-- `IntoEmplacable<[T; N]> for [Emplacable<T, F>; N]` (1150–1217) -/
def array (sz al : Nat) (es : List (Emplacable σ (sizedTy sz al) β)) : Emplacable σ (arrayTy sz al es.length) β :=
  (pure
    { layout := ⟨es.length * sz, al⟩
      md := ()
      write := writeItems sz es.length es []
      dropVal := dropAll es
      finish := pure () } : Exec _ (Started σ (arrayTy sz al es.length) β))

/-- `IntoEmplacable<[T]> for Emplacable<[T; N], F>` (1130–1137): `unsize`. -/
def arrayToSlice (sz al n : Nat) (e : Emplacable σ (arrayTy sz al n) β) : Emplacable σ (sliceTy sz al) β :=
  unsize (n * sz) al (sliceTy sz al) (n : Nat) e

/-- The closure of `from_iter` (604–656), once the layout is known. -/
def iterated (sz al : Nat) (es : List (Emplacable σ (sizedTy sz al) β)) (len : Nat) (layout : Layout) :
    Emplacable σ (sliceTy sz al) β :=
  (pure
    { layout := layout
      md := (len : Nat)
      write := writeItems sz len es []
      dropVal := dropAll es
      finish := pure () } : Exec _ (Started σ (sliceTy sz al) β))

/-- `Emplacable::from_iter` (582–666); `len` is what `ExactSizeIterator::len` returned. The layout is computed here; if it does not
exist, `unwrap` panics and the iterator is dropped. -/
def fromIter (c : Cfg) (sz al : Nat) (es : List (Emplacable σ (sizedTy sz al) β)) (len : Nat) :
    Exec σ (Emplacable σ (sliceTy sz al) β) :=
  Exec.onUnwind
    (do
      Exec.assert (sz * len ≤ c.usizeMax)
      Exec.assert (al ∈ ValidAlign.variants c ∧ sz * len + (al - 1) ≤ c.isizeMax)
      pure (iterated sz al es len ⟨sz * len, al⟩))
    (dropAll es)

/-- `with_emplacable_for` (363–384): `f` gets an emplacable that refers to `val`; `val` is forgotten when `f` returned. If `f`
unwinds, the local variable `val` is dropped. The state is what the caller owns and what `f` works on. -/
def withEmplacableFor {R : Type} (env : Env (Val T β)) (x : Val T β)
    (f : Emplacable (St (Val T β) β) T β → Exec (St (Val T β) β × τ) R) : Exec (St (Val T β) β × τ) R :=
  Exec.onUnwind (f (value env x)) (liftL (dropValue env x))

end Source

namespace Sink
variable {T : UTy} {β : Type} [Inhabited β] {X : Type}

/-- `box_new` (1352–1385) -/
def boxNew (env : Env X) (x : Val T β) : Exec (BoxSt T β) Unit := do
  let p ← boxAlloc env ⟨x.size, x.align⟩
  if x.size > 0 then fill p x.bytes else pure ()
  Exec.modify (fun s => { s with made := some (p, x.md) })

end Sink
end Verif
