import Verif.Model.Unaligned
import Verif.Model.Aligned

/-!
# `UnsizedVec::unsize`

`lib.rs:1158–1166` calls `from_sized` (`unaligned.rs:1030–1069`, `aligned.rs:639–677`), which puts the vector into a
`ManuallyDrop` and then collects the element-info records into a new `Vec`. `UVec.fromSized` and `AVec.fromSized` compute
the resulting vector; here the allocation of that `Vec` is added, which can fail.
-/

namespace Verif

/-- The allocation of a `Vec` of `n` records by `collect` (`unaligned.rs:1050–1058`, `aligned.rs:659–667`): the range has an exact
length, so it is `Vec::with_capacity(n)`. Too many records are a panic (`capacity overflow`), a failing allocator aborts
(`handle_alloc_error`). Returns the capacity. -/
def collectRecords {σ X : Type} (c : Cfg) (env : Env X) (n : Nat) : Exec σ Nat :=
  match stdReserve c.infoMax 0 0 n env.infoGrow with
  | .ok cap => pure cap
  | .error .capacityOverflow => Exec.panic
  | .error .allocError => Exec.abort

/-- `unsize` to a dynamically aligned type. There is no vector before the call returns; when it panics the `Vec<S>` is in
a `ManuallyDrop`, so nothing is destroyed and nothing freed. -/
def UVec.unsize {T : UTy} {β : Type} [Inhabited β] (c : Cfg) (env : Env (Val T β)) (r : RawVec β) (md : T.Meta) : Exec Unit (UVec T β) := do
  let cap ← collectRecords c env r.len
  let v ← Exec.orUb (UVec.fromSized c r md)
  pure { v with elemsCap := cap }

/-- `unsize` to a statically aligned type. -/
def AVec.unsize {A : ATy} {β : Type} [Inhabited β] (c : Cfg) (env : Env (Val A.ty β)) (r : RawVec β) (md : A.ty.Meta) :
    Exec Unit (AVec A β) := do
  let cap ← collectRecords c env r.len
  let v ← Exec.orUb (AVec.fromSized c r md)
  pure { v with elemsCap := cap }

end Verif
