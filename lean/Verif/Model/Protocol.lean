import Verif.Model.Heap

/-!
# The emplacement protocol

Transcription of the contract between `Emplacable<T, F>` and `Emplacer<'_, T>`
(emplacable/src/lib.rs:386–470 and 1256–1344).

An emplacable wraps a closure that (1) runs some code, (2) calls the emplacer function with a layout, the
pointer metadata and an inner closure, and (3) runs some more code. The emplacer function (a) runs some code
(usually reserving memory), (b) calls the inner closure with a pointer, or with null, or not at all, and
(c) runs some more code. The inner closure writes the value to the pointer, or drops the value if the
pointer is null. The model names these pieces; `run` puts them together in the order in which the closures
call each other, with the state `σ` of the source side and the state `τ` of the destination side.

Simplification: the two sides own disjoint state (Rust's borrow rules enforce this), and the emplacer calls
the inner closure at most once (a safety requirement of `Emplacer::from_fn`).
-/

namespace Verif

/-- Result of the inner closure called with a non-null pointer. -/
inductive WriteRes (σ β : Type) where
  /-- the bytes it stored at the pointer, and it returned -/
  | done (bytes : List β) (s : σ)
  /-- the bytes it had stored when it unwound -/
  | unwind (partialBytes : List β) (s : σ)
  | abort
  | ub

/-- The state of an emplacable that has called the emplacer function. -/
structure Started (σ : Type) (T : UTy) (β : Type) where
  layout : Layout
  md : T.Meta
  /-- the inner closure, called with a non-null pointer -/
  write : σ → WriteRes σ β
  /-- the inner closure, called with null -/
  dropVal : Exec σ Unit
  /-- what the emplacable closure does after the emplacer function returned -/
  finish : Exec σ Unit

/-- The closure of an `Emplacable<T, _>` up to its call of the emplacer function. -/
abbrev Emplacable (σ : Type) (T : UTy) (β : Type) : Type := Exec σ (Started σ T β)

/-- What an emplacer function does with the inner closure. -/
inductive Prepared (τ β : Type) where
  /-- call it with a pointer: how the bytes written there change the state, what happens when it returned, and
  which drop guards run if it unwinds -/
  | place (store : List β → Exec τ Unit) (commit : Exec τ Unit) (rollback : Exec τ Unit)
  /-- call it with null -/
  | dropIt (commit : Exec τ Unit)
  /-- do not call it: the value is forgotten -/
  | skip (commit : Exec τ Unit)

/-- An emplacer function up to its call of the inner closure. -/
abbrev Emplacer (τ : Type) (T : UTy) (β : Type) : Type := Layout → T.Meta → Exec τ (Prepared τ β)

section
variable {σ τ α : Type}

/-- Run a computation on the left component of the state. -/
def liftL (m : Exec σ α) : Exec (σ × τ) α := fun st =>
  match m st.1 with
  | .ok a s => .ok a (s, st.2)
  | .panic s => .panic (s, st.2)
  | .abort => .abort
  | .ub => .ub

/-- Run a computation on the right component of the state. -/
def liftR (m : Exec τ α) : Exec (σ × τ) α := fun st =>
  match m st.2 with
  | .ok a t => .ok a (st.1, t)
  | .panic t => .panic (st.1, t)
  | .abort => .abort
  | .ub => .ub
end

/-- The inner closure writes to the emplacer's pointer; if it unwinds, the emplacer's drop guards run. -/
def placeInto {σ τ : Type} {β : Type} (write : σ → WriteRes σ β) (store : List β → Exec τ Unit)
    (rollback : Exec τ Unit) : Exec (σ × τ) Unit := fun st =>
  match write st.1 with
  | .done bs s => liftR (store bs) (s, st.2)
  | .unwind bs s =>
    Exec.onUnwind (do liftR (store bs); Exec.panic) (liftR rollback) (s, st.2)
  | .abort => .abort
  | .ub => .ub

/-- `emplacable_closure(emplacer)`: the complete exchange. -/
def run {σ τ : Type} {T : UTy} {β : Type} (e : Emplacable σ T β) (m : Emplacer τ T β) : Exec (σ × τ) Unit := do
  let st ← liftL e
  match ← liftR (m st.layout st.md) with
  | .place store commit rollback =>
    placeInto st.write store rollback
    liftR commit
  | .dropIt commit =>
    liftL st.dropVal
    liftR commit
  | .skip commit => liftR commit
  liftL st.finish

/-- `Drop for Emplacable` (emplacable/src/lib.rs:669–699): run the closure with an emplacer that passes null. -/
def Source.drop {σ : Type} {T : UTy} {β : Type} (e : Emplacable σ T β) : Exec σ Unit := do
  let st ← (e : Exec σ (Started σ T β))
  st.dropVal
  st.finish

end Verif
