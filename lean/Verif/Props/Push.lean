import Verif.Proofs.Observe
import Verif.Spec.Samples

/-!
# C01, C15, C16: `push`
-/

namespace Verif
open Sample

section
variable {T : UTy} {A : ATy} {β : Type} [Inhabited β] {c : Cfg}

/-! ## C01 -/

/-- C01 for statically aligned elements. `push` never has undefined behaviour. If it returns, the vector holds the old
elements followed by the new one and nothing was dropped. If it panics, the contents are unchanged and the reason is that
the request was refused or exceeds the address space; it aborts only if the request was refused. -/
theorem C01_push_aligned (hA : A.Lawful c) {v : AVec A β} {xs : List (Val A.ty β)} (h : v.Holds c xs)
    {env : Env (Val A.ty β)} (hv : env.Valid) {x : Val A.ty β} (hx : x.WF c) :
    (Api.push c (alignedP c A) env x v).Meets
      (fun _ v' => v'.Holds c (xs ++ [x]) ∧ v'.drops = v.drops)
      (fun v' => v'.Holds c xs ∧ v'.drops = v.drops ∧
        (env.Refuses (xs.length + 1) (v.request (x.size - v.spare xs)) ∨ v.TooLarge c xs 1 (x.size - v.spare xs)))
      (env.Refuses (xs.length + 1) (v.request (x.size - v.spare xs))) :=
  ((AVec.impl hA).push_meets h hv hx (fun _ _ => trivial) (fun _ => trivial)).mono (fun _ _ h => ⟨h.1, h.2.1⟩)
    (fun _ h => ⟨h.1.holds, h.1.drops, h.2⟩) (fun h => h)

/-- C01 for dynamically aligned elements, whether or not the byte capacity is a multiple of the alignment. If it is not, the excluded
case is `RoomOk`: the element fits but its padding does not (`C20_counterexample`). -/
theorem C01_push_unaligned_stored_partial {G : Prop} {v : UVec T β} {xs : List (Val T β)} (h : v.Represents G c xs)
    {env : Env (Val T β)} (hv : env.Valid) (he : G → env.Exact) {x : Val T β} (hx : x.WF c) (hz : v.ZstOk x.size x.align)
    (hr : x.align ≤ v.align → v.RoomOk xs x.size) :
    (Api.push c (unalignedP c T) env x v).Meets
      (fun _ v' => v'.Represents G c (xs ++ [x]) ∧ v'.drops = v.drops)
      (fun v' => v'.Represents G c xs ∧ v'.drops = v.drops ∧
        (env.Refuses (xs.length + 1) (v.request xs (x.size - v.spare xs) x.align) ∨
          v.TooLarge c xs 1 (x.size - v.spare xs) x.align))
      (env.Refuses (xs.length + 1) (v.request xs (x.size - v.spare xs) x.align)) :=
  ((UVec.impl G c T).push_meets h ⟨hv, he⟩ hx hz hr).mono (fun _ _ h => ⟨h.1, h.2.1⟩)
    (fun _ h => ⟨h.1.holds, h.1.drops, h.2⟩) (fun h => h)

/-- C01 for dynamically aligned elements. Partial: not covered is a zero-sized element whose alignment exceeds the
alignment of a vector that has no memory (`ZstOk`); `C01_counterexample` shows that the code is wrong there. -/
theorem C01_push_unaligned_partial {v : UVec T β} {xs : List (Val T β)} (h : v.Holds c xs)
    {env : Env (Val T β)} (hv : env.Valid) (he : env.Exact) {x : Val T β} (hx : x.WF c) (hz : v.ZstOk x.size x.align) :
    (Api.push c (unalignedP c T) env x v).Meets
      (fun _ v' => v'.Holds c (xs ++ [x]) ∧ v'.drops = v.drops)
      (fun v' => v'.Holds c xs ∧ v'.drops = v.drops ∧
        (env.Refuses (xs.length + 1) (v.request xs (x.size - v.spare xs) x.align) ∨
          v.TooLarge c xs 1 (x.size - v.spare xs) x.align))
      (env.Refuses (xs.length + 1) (v.request xs (x.size - v.spare xs) x.align)) :=
  C01_push_unaligned_stored_partial h hv (fun _ => he) hx hz (fun _ => .inl (h.capDvd trivial))

/-- Consequence for what a user sees: when memory is available, `push` returns and the elements seen through `get` are
the old ones followed by the new one. -/
theorem C01_push_aligned_returns (hA : A.Lawful c) {v : AVec A β} {xs : List (Val A.ty β)} (h : v.Holds c xs)
    {env : Env (Val A.ty β)} (hv : env.Valid) {x : Val A.ty β} (hx : x.WF c)
    (hr : ¬ env.Refuses (xs.length + 1) (v.request (x.size - v.spare xs)))
    (hl : ¬ v.TooLarge c xs 1 (x.size - v.spare xs)) :
    v.observe c = some xs ∧
    ∃ v', Api.push c (alignedP c A) env x v = .ok () v' ∧ v'.observe c = some (xs ++ [x]) := by
  have := C01_push_aligned hA h hv hx
  cases hm : Api.push c (alignedP c A) env x v with
  | ok u v' => rw [hm] at this; exact ⟨h.observe_eq hA.fits, v', rfl, this.1.observe_eq hA.fits⟩
  | panic v' => rw [hm] at this; exact absurd this.2.2 (by rintro (h | h) <;> contradiction)
  | abort => rw [hm] at this; exact absurd this hr
  | ub => rw [hm] at this; exact this.elim

theorem C01_push_unaligned_returns_partial {v : UVec T β} {xs : List (Val T β)} (h : v.Holds c xs)
    {env : Env (Val T β)} (hv : env.Valid) (he : env.Exact) {x : Val T β} (hx : x.WF c) (hz : v.ZstOk x.size x.align)
    (hr : ¬ env.Refuses (xs.length + 1) (v.request xs (x.size - v.spare xs) x.align))
    (hl : ¬ v.TooLarge c xs 1 (x.size - v.spare xs) x.align) :
    v.observe c = some xs ∧
    ∃ v', Api.push c (unalignedP c T) env x v = .ok () v' ∧ v'.observe c = some (xs ++ [x]) := by
  have := C01_push_unaligned_partial h hv he hx hz
  cases hm : Api.push c (unalignedP c T) env x v with
  | ok u v' => rw [hm] at this; exact ⟨h.observe_eq, v', rfl, this.1.observe_eq⟩
  | panic v' => rw [hm] at this; exact absurd this.2.2 (by rintro (h | h) <;> contradiction)
  | abort => rw [hm] at this; exact absurd this hr
  | ub => rw [hm] at this; exact this.elim

end

/-- The hypotheses can be met: a vector with two elements, and an element that needs a larger alignment and more memory. -/
example : vecU.Holds c64 listU ∧ (env : Env (Val Dyn Nat)).Valid ∧ (env : Env (Val Dyn Nat)).Exact ∧
    (dyn 16 (List.replicate 32 7)).WF c64 ∧ vecU.ZstOk 32 16 ∧ ¬ vecU.TooLarge c64 listU 1 24 16 :=
  ⟨vecU_holds _ (.inl rfl), env_valid, env_exact, dyn_wf 4 _ (by decide) (by decide) (by decide) _ (.inl rfl),
    by intro h; exact absurd h (by decide), by unfold UVec.TooLarge UVec.BytesTooLarge; decide⟩

example : Bytes.Lawful c64 ∧ vecA.Holds c64 listA ∧ (bytes [7, 8, 9, 10, 11]).WF c64 ∧
    ¬ vecA.TooLarge c64 listA 1 1 :=
  ⟨bytes_lawful _ (.inl rfl), vecA_holds _ (.inl rfl), bytes_wf _ (by decide) _ (.inl rfl),
    by rintro (h | h) <;> exact absurd h (by decide)⟩

/-- A test of the model: pushing a 32-byte element of alignment 16 onto `vecU`. -/
example : ∃ v', Api.push c64 (unalignedP c64 Dyn) env (dyn 16 (List.replicate 32 7)) vecU = .ok () v' ∧
    v'.observe c64 = some (listU ++ [dyn 16 (List.replicate 32 7)]) := ⟨_, rfl, rfl⟩

/-- An allocator that returns addresses no better aligned than requested. -/
def envOdd : Env (Val Dyn Nat) := { (env : Env (Val Dyn Nat)) with alloc := fun l => some (3 * max 1 l.align, 0) }

/-- C01 is false of the code. With debug assertions, pushing a zero-sized value of alignment 16 onto a new vector panics
although memory is available. Without, it returns, but when another value is pushed, the first element's alignment
is forgotten and `get(0)` is a misaligned reference (undefined behaviour). -/
theorem C01_counterexample :
    (dyn 16 []).WF c64 ∧ envOdd.Valid ∧
    (∃ v', Api.push c64d (unalignedP c64d Dyn) envOdd (dyn 16 []) (UVec.newAlignPtr c64d) = .panic v') ∧
    (∃ v' v'', Api.push c64 (unalignedP c64 Dyn) envOdd (dyn 16 []) (UVec.newAlignPtr c64) = .ok () v' ∧
      Api.push c64 (unalignedP c64 Dyn) envOdd (dyn 1 [5]) v' = .ok () v'' ∧
      Api.get (unalignedP c64 Dyn) v'' 0 = none) := by
  refine ⟨dyn_wf 4 _ (by decide) (by decide) (by decide) _ (.inl rfl), ?_, ⟨_, rfl⟩, ⟨_, _, rfl, rfl, rfl⟩⟩
  intro l p x hl h
  simp only [envOdd, Option.some.injEq, Prod.mk.injEq] at h
  obtain ⟨rfl, rfl⟩ := h
  rw [Nat.max_eq_right hl]
  exact ⟨by omega, Nat.dvd_mul_left _ _⟩

end Verif
