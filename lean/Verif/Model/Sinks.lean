import Verif.Model.Protocol

/-!
# Ways to use up an emplacable

Transcription of the emplacers of `Emplacable::get`, `Emplacable::forget`, `Drop for Emplacable` and `box_new_with`
(emplacable/src/lib.rs; line numbers refer to that file).
-/

namespace Verif
namespace Sink

/-- `dropping_emplacer_closure` of `Drop for Emplacable` (676–684): call the inner closure with null. -/
def dropping {τ : Type} {T : UTy} {β : Type} : Emplacer τ T β := fun _ _ => pure (.dropIt (pure ()))

/-- `forgetting_emplacer_closure` of `Emplacable::forget` (508–526): do not call the inner closure. -/
def forgetting {τ : Type} {T : UTy} {β : Type} : Emplacer τ T β := fun _ _ => pure (.skip (pure ()))

/-- The emplacer of `Emplacable::get` (476–498): the state is what has been written into the `MaybeUninit` buffer. The
metadata of a sized type is `()`, its layout is that of the buffer. -/
def getting {T : UTy} {β : Type} (layout : Layout) : Emplacer (List β) T β := fun _ _ =>
  pure (.place
    (fun bs => do
      Exec.require (bs.length ≤ layout.size)
      Exec.set bs)
    (pure ()) (pure ()))

/-- The state of `box_new_with`: memory, and the box once it exists (pointer and metadata). -/
structure BoxSt (T : UTy) (β : Type) where
  heap : Heap β
  made : Option (Nat × T.Meta)

/-- `Drop for PointerDeallocer` (1411–1420) -/
def dealloc {T : UTy} {β : Type} [Inhabited β] (p : Nat) (l : Layout) : Exec (BoxSt T β) Unit := do
  if l.size ≠ 0 then
    let s ← Exec.get
    let h ← Exec.orUb (s.heap.deallocate p l)
    Exec.set { s with heap := h }

/-- Copying into the new allocation. -/
def fill {T : UTy} {β : Type} [Inhabited β] (p : Nat) (bs : List β) : Exec (BoxSt T β) Unit := do
  let s ← Exec.get
  let h ← Exec.orUb (s.heap.write p 0 bs)
  Exec.set { s with heap := h }

/-- The pointer of the `PointerDeallocer` (1430–1443): dangling for a zero-sized layout, otherwise from the allocator;
`handle_alloc_error` ends the process. -/
def boxAlloc {T : UTy} {β : Type} [Inhabited β] {X : Type} (env : Env X) (l : Layout) : Exec (BoxSt T β) Nat := do
  if l.size = 0 then pure l.align
  else
    let s ← Exec.get
    match s.heap.allocate env l with
    | none => Exec.abort
    | some (h, p, _) => do
      Exec.set { s with heap := h }
      pure p

/-- The emplacer of `box_new_with` (1424–1458). -/
def boxing {T : UTy} {β : Type} [Inhabited β] {X : Type} (env : Env X) : Emplacer (BoxSt T β) T β := fun l md => do
  let p ← boxAlloc env l
  pure (.place (fill p) (Exec.modify (fun s => { s with made := some (p, md) })) (dealloc p l))

end Sink
end Verif
