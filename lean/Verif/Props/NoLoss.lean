import Verif.Proofs.NoLoss
import Verif.Props.History

/-!
# C58: a vector gives up neither capacity nor alignment by itself

The theorems are about all programs without calls of the shrink family, whatever the vector is, whatever the arguments of the
calls are, and however allocator and destructors behave: nothing is assumed, except that the program gets to its end without
undefined behaviour and without the process being aborted. (Panics are caught, see `runOps`.)
-/

namespace Verif
section
variable {T : UTy} {A : ATy} {β : Type} [Inhabited β] {c : Cfg} {sz al a : Nat}

/-- C58, dynamically aligned elements. -/
theorem C58_unaligned {ops : List (Env (Val T β) × Op T β)} (hg : ∀ p ∈ ops, p.2.Grows ∧ p.2.asks ≤ a) {v v' : UVec T β} {os : List (Out T β)}
    (h : runOps c (unalignedM c T) ops v = .ok os v') :
    NoLoss (unalignedP c T) (fun v : UVec T β => v.heap.block) (fun v => v.ptr) a v v' := by
  have h1 := runOps_keeps (c := c) (M := unalignedM c T) (UVec.Lossless.pre (a := a)) UVec.machine_keeps UVec.provider_keeps ops hg v
  rw [h] at h1
  exact h1.1.noLoss

/-- C58, statically aligned elements. -/
theorem C58_aligned {ops : List (Env (Val A.ty β) × Op A.ty β)} (hg : ∀ p ∈ ops, p.2.Grows ∧ p.2.asks ≤ a) {v v' : AVec A β} {os : List (Out A.ty β)}
    (h : runOps c (alignedM c A) ops v = .ok os v') :
    NoLoss (alignedP c A) (fun v : AVec A β => v.heap.block) (fun v => v.ptr) a v v' := by
  have h1 := runOps_keeps (c := c) (M := alignedM c A) AVec.Lossless.pre AVec.machine_keeps (AVec.provider_keeps (a := a)) ops hg v
  rw [h] at h1
  exact h1.1.noLoss

omit [Inhabited β] in
/-- C58, sized elements. The model does not know the addresses of a `Vec`, but how often it asked the allocator. -/
theorem C58_sized {ops : List (Env (Val (sizedTy sz al) β) × Op (sizedTy sz al) β)} (hg : ∀ p ∈ ops, p.2.Grows ∧ p.2.asks ≤ a)
    {v v' : SVec sz al β} {os : List (Out (sizedTy sz al) β)} (h : runOps c (sizedM c sz al) ops v = .ok os v') :
    NoLoss (sizedP c sz al) (fun v : SVec sz al β => v.allocs) (fun _ => 0) a v v' := by
  have h1 := runOps_keeps (c := c) (M := sizedM c sz al) SVec.Lossless.pre SVec.machine_keeps (SVec.provider_keeps (a := a)) ops hg v
  rw [h] at h1
  exact h1.1.noLoss

/-- C58, "as long as none of your trait objects are aligned to more than that, you won't have to worry about re-padding"
(src/lib.rs:176–178): if no call asks for more than the alignment of the vector, the alignment stays. -/
theorem C58_no_repadding {ops : List (Env (Val T β) × Op T β)} {v v' : UVec T β} (hg : ∀ p ∈ ops, p.2.Grows ∧ p.2.asks ≤ v.align)
    {os : List (Out T β)} (h : runOps c (unalignedM c T) ops v = .ok os v') : v'.align = v.align := by
  have h1 := C58_unaligned hg h
  have h2 : v.align ≤ v'.align := h1.align
  have h3 : v'.align ≤ max v.align v.align := h1.asked
  omega

/-- C58, the same for a new vector: the alignment is that of `usize`. -/
theorem C58_new_no_repadding {ops : List (Env (Val T β) × Op T β)} (hg : ∀ p ∈ ops, p.2.Grows ∧ p.2.asks ≤ c.usizeAlign)
    {v' : UVec T β} {os : List (Out T β)} (h : runOps c (unalignedM c T) ops (Api.new (unalignedP c T)) = .ok os v') :
    v'.align = c.usizeAlign :=
  C58_no_repadding (v := Api.new (unalignedP c T)) hg h

end

/-! ## Examples -/
section
open Sample

/-- Two insertions, a caught panic, a removal, and a push for which there is no memory. -/
def progKeep : List (Env (Val Dyn Nat) × Op Dyn Nat) :=
  [(env, .push (dyn 2 [1, 2])), (env, .push (dyn 8 [1, 2, 3, 4, 5, 6, 7, 8])), (env, .index 9), (env, .remove 0 .drop),
   (envFull, .tryReserve (.capBytes 1 100)), (env, .pop .take)]

example : (∀ p ∈ progKeep, p.2.Grows ∧ p.2.asks ≤ c64.usizeAlign) ∧
    ((runOps c64 (unalignedM c64 Dyn) progKeep (Api.new (unalignedP c64 Dyn))).stateOr UVec.newAlign1).align = 8 := by
  refine ⟨?_, by decide +kernel⟩
  intro p hp
  simp only [progKeep, List.mem_cons, List.not_mem_nil, or_false] at hp
  rcases hp with rfl | rfl | rfl | rfl | rfl | rfl <;> exact ⟨trivial, by decide⟩

/-- The claim is not about shrinking: `shrink_to_fit` of the vector that has been emptied gives everything up. -/
example : (fun v => (v.elemsCap, v.byteCap, v.align)) ((runOps c64 (unalignedM c64 Dyn) progKeep (Api.new (unalignedP c64 Dyn))).stateOr UVec.newAlign1) = (2, 16, 8) ∧
    (fun v => (v.elemsCap, v.byteCap, v.align))
      ((runOps c64 (unalignedM c64 Dyn) (progKeep ++ [(env, .shrink .toFit)]) (Api.new (unalignedP c64 Dyn))).stateOr UVec.newAlign1) = (0, 0, 1) := by
  exact ⟨by decide +kernel, by decide +kernel⟩

end
end Verif
