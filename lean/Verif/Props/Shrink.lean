import Verif.Proofs.Shrink
import Verif.Spec.Samples

/-!
# C18, C19, C20: shrinking
-/

namespace Verif
open Sample

section
variable {T : UTy} {A : ATy} {β : Type} [Inhabited β] {c : Cfg}

/-! ## C18 -/

/-- C18 for statically aligned elements. Every shrinking method returns (or aborts, if the element-info `Vec` cannot be
shrunk), and all elements are as before. -/
theorem C18_shrink_aligned (hA : A.Fits c) {v : AVec A β} {xs : List (Val A.ty β)} (h : v.Holds c xs)
    {env : Env (Val A.ty β)} (hv : env.Valid) (s : Shrinking) :
    (s.run c (alignedP c A) env v).Meets
      (fun _ v' => v'.Holds c xs ∧ v.observe c = some xs ∧ v'.observe c = some xs ∧ v'.drops = v.drops) (fun _ => False)
      (env.infoShrink = false) := by
  rw [s.run_aligned]
  exact (AVec.shrinkTo_meets hA h hv _ _).mono (fun _ _ h' => ⟨h'.holds, h.observe_eq hA, h'.holds.observe_eq hA, h'.drops⟩)
    (fun _ h => h) (fun h => h.1)

/-- C18 for dynamically aligned elements. Partial: covered is the case that the alignment is not lowered, or that lowering it
does not change the padding between the elements (`ShrinkOk`); otherwise the contents are destroyed
(`C18_counterexample`). -/
theorem C18_shrink_unaligned_partial {G : Prop} {v : UVec T β} {xs : List (Val T β)} (h : v.Represents G c xs) {env : Env (Val T β)}
    (hv : env.Valid) (s : Shrinking) (hs : IsAlign c (s.align c)) (hok : v.ShrinkOk xs (s.align c)) :
    (s.run c (unalignedP c T) env v).Meets
      (fun _ v' => v'.Stores c xs ∧ v.observe c = some xs ∧ v'.observe c = some xs ∧ v'.drops = v.drops) (fun _ => False)
      (env.infoShrink = false) := by
  rw [s.run_unaligned env hs]
  exact (UVec.shrinkTo_meets h hv _ _ hs hok).mono
    (fun _ _ h' => ⟨h'.stores, h.observe_eq, h'.stores.observe_eq, h'.drops⟩) (fun _ h => h) (fun h => h.1)

/-- C18 for dynamically aligned elements and the methods that do not lower the alignment: `shrink_to` and
`shrink_capacity_bytes_to`. No condition is needed. -/
theorem C18_shrink_unaligned_keep_align {G : Prop} {v : UVec T β} {xs : List (Val T β)} (h : v.Represents G c xs) {env : Env (Val T β)}
    (hv : env.Valid) (s : Shrinking) (hs : s.align c = 2 ^ (c.bits - 1)) :
    (s.run c (unalignedP c T) env v).Meets
      (fun _ v' => v'.Stores c xs ∧ v.observe c = some xs ∧ v'.observe c = some xs ∧ v'.drops = v.drops) (fun _ => False)
      (env.infoShrink = false) := by
  refine C18_shrink_unaligned_partial h hv s ?_ ?_
  · rw [hs]; exact isAlign_top h.al.bits_pos
  · intro x _; rw [hs, UVec.shrunkAlign_top h]

/-! ## C19 -/

/-- C19 for statically aligned elements: the element capacity becomes `max(len, min(old, requested))`; the byte capacity
covers the contents and the requested minimum; it does not grow (for allocators that return what is asked for); and
it becomes exactly the requested one unless the allocator refuses. -/
theorem C19_shrink_aligned (hA : A.Fits c) {v : AVec A β} {xs : List (Val A.ty β)} (h : v.Holds c xs)
    {env : Env (Val A.ty β)} (hv : env.Valid) (s : Shrinking) :
    (s.run c (alignedP c A) env v).Meets
      (fun _ v' => v'.elemsCap = max xs.length (min v.elemsCap s.slots) ∧
        v'.byteLen ≤ v'.byteCap ∧ min v.byteCap (s.bytes c) ≤ v'.byteCap ∧ (env.Exact → v'.byteCap ≤ v.byteCap) ∧
        (env.Exact → env.alloc ⟨v.shrunkCap xs (s.bytes c), A.ALIGN⟩ ≠ none →
          v'.byteCap = max (min (s.bytes c) v.byteCap) v.byteLen)) (fun _ => False)
      (env.infoShrink = false ∧ max xs.length (min v.elemsCap s.slots) < v.elemsCap) := by
  rw [s.run_aligned]
  refine (AVec.shrinkTo_meets hA h hv _ _).mono (fun _ v' h' => ?_) (fun _ h => h) (fun h => h)
  have h1 := h.cap
  have h2 := h'.holds.cap
  refine ⟨h'.elemsCap, ?_⟩
  rw [AVec.byteLen_eq h'.holds, AVec.byteLen_eq h]
  have hsz := h'.size
  have hdef : v.shrunkCap xs (s.bytes c) = max (min (s.bytes c) v.byteCap) (totalWidth id xs) := rfl
  rw [← hdef]
  rcases hsz with ⟨h3, h4⟩ | ⟨h3, h4⟩
  · exact ⟨h2, by omega, fun _ => by omega, fun _ h => absurd h4 h⟩
  · exact ⟨h2, by omega, fun he => by rw [h4 he]; omega, fun he _ => h4 he⟩

/-- C19 for dynamically aligned elements, guarded as C18. As for statically aligned elements, an allocator that returns more
than was asked for can leave more than the requested capacity. The alignment after shrinking is a power of two that is a multiple
of the alignment of every element, and not above the old one. -/
theorem C19_shrink_unaligned_partial {G : Prop} {v : UVec T β} {xs : List (Val T β)} (h : v.Represents G c xs) {env : Env (Val T β)}
    (hv : env.Valid) (s : Shrinking) (hs : IsAlign c (s.align c)) (hok : v.ShrinkOk xs (s.align c)) :
    (s.run c (unalignedP c T) env v).Meets
      (fun _ v' => v'.elemsCap = max xs.length (min v.elemsCap s.slots) ∧
        (∃ n, v'.alignedByteLen c = some n ∧ n ≤ v'.byteCap) ∧ (env.Exact → v'.byteCap ≤ v.byteCap) ∧ min v.byteCap (s.bytes c) ≤ v'.byteCap ∧
        IsAlign c v'.align ∧ (∀ x ∈ xs, x.align ∣ v'.align) ∧ v'.align ≤ v.align ∧
        (env.alloc ⟨v.shrunkCap xs (s.bytes c) (s.align c), v.shrunkAlign xs (s.align c)⟩ ≠ none →
          (env.Exact → v'.byteCap = v.shrunkCap xs (s.bytes c) (s.align c)) ∧ v'.align = v.shrunkAlign xs (s.align c))) (fun _ => False)
      (env.infoShrink = false ∧ max xs.length (min v.elemsCap s.slots) < v.elemsCap) := by
  rw [s.run_unaligned env hs]
  refine (UVec.shrinkTo_meets h hv _ _ hs hok).mono (fun _ v' h' => ?_) (fun _ h => h) (fun h => h)
  have h1 := h.cap
  have h2 := h'.stores.cap
  have hle := UVec.shrunkAlign_le h (s.align c)
  have hd := (UVec.shrunkAlign_isAlign h hs).dvd_of_le h.al hle
  have hmono := totalWidth_mono_align (UVec.shrunkAlign_isAlign h hs).pos h.al.pos hd xs
  have hdef : v.shrunkCap xs (s.bytes c) (s.align c) =
    max (min (s.bytes c) v.byteCap) (totalWidth (padTo (v.shrunkAlign xs (s.align c))) xs) := rfl
  refine ⟨h'.elemsCap, ⟨_, UVec.alignedByteLen_eq h'.stores, h2⟩, ?_, ?_, h'.stores.al, h'.stores.elemAl, ?_, ?_⟩
  all_goals rcases h'.size with ⟨h3, h4, h5⟩ | ⟨h3', h3, h4⟩
  · exact fun _ => by omega
  · exact fun he => by rw [h3 he]; omega
  · omega
  · omega
  · omega
  · omega
  · exact fun h => absurd h5 h
  · exact fun _ => ⟨h3, h4⟩

/-! ## C20: the part about shrinking -/

/-- After shrinking, the whole invariant holds (in particular `byte_len() ≤ byte_capacity()` now and after every further
covered call), provided that the byte capacity after shrinking is a multiple of the alignment after shrinking
(`CapOk`); otherwise a later `push` can break it (`C20_counterexample`). -/
theorem C20_shrink_unaligned_partial {v : UVec T β} {xs : List (Val T β)} (h : v.Holds c xs) {env : Env (Val T β)}
    (hv : env.Valid) (he : env.Exact) (s : Shrinking) (hs : IsAlign c (s.align c)) (hok : v.ShrinkOk xs (s.align c))
    (hcap : v.CapOk xs (s.bytes c) (s.align c)) :
    (s.run c (unalignedP c T) env v).Meets (fun _ v' => v'.Holds c xs) (fun _ => False) (env.infoShrink = false) := by
  rw [s.run_unaligned env hs]
  exact (UVec.shrinkTo_meets h hv _ _ hs hok).mono (fun _ _ h' => h'.holds h he hcap) (fun _ h => h) (fun h => h.1)

/-- `shrink_to(n)` always keeps the invariant. -/
theorem C20_shrink_to_unaligned {v : UVec T β} {xs : List (Val T β)} (h : v.Holds c xs) {env : Env (Val T β)}
    (hv : env.Valid) (he : env.Exact) (n : Nat) :
    (Api.shrinkTo c (unalignedP c T) env n v).Meets (fun _ v' => v'.Holds c xs) (fun _ => False) (env.infoShrink = false) := by
  refine C20_shrink_unaligned_partial h hv he (.elems n) (isAlign_top h.al.bits_pos) ?_ ?_
  · intro x _
    rw [show (Shrinking.elems n).align c = 2 ^ (c.bits - 1) from rfl, UVec.shrunkAlign_top h]
  · show v.shrunkAlign xs (2 ^ (c.bits - 1)) ∣ max (min c.usizeMax v.byteCap) (totalWidth (padTo (v.shrunkAlign xs (2 ^ (c.bits - 1)))) xs)
    rw [UVec.shrunkAlign_top h]
    have h1 := h.cap
    have h2 := h.capMax
    have h3 := c.isizeMax_le_usizeMax
    rw [show max (min c.usizeMax v.byteCap) (totalWidth (padTo v.align) xs) = v.byteCap by omega]
    exact h.capDvd trivial

end

/-! ## Examples and counterexamples -/

/-- A vector of `Dyn` with alignment 8 whose elements leave no padding when the alignment is lowered to 4. -/
def vecS : UVec Dyn Nat where
  ptr := 65536
  byteCap := 24
  elems := [⟨(8, 4), 8⟩, ⟨(4, 2), 12⟩]
  elemsCap := 4
  align := 8
  heap := ⟨fun i => [1, 2, 3, 4, 5, 6, 7, 8, 11, 12, 13, 14].getD i 0, some ⟨65536, 24, 24, 8⟩, 0⟩
  drops := []

/-- The contents of `vecS`. -/
def listS : List (Val Dyn Nat) := [dyn 4 [1, 2, 3, 4, 5, 6, 7, 8], dyn 2 [11, 12, 13, 14]]

theorem vecS_holds : vecS.Holds c64 listS := by
  refine ⟨?_, ⟨3, by decide, rfl⟩, by decide, by decide, by decide, by decide, by decide,
    by decide, by refine ⟨?_, ?_, trivial⟩ <;> decide, by refine ⟨?_, ?_, ?_, ?_, ?_, ?_, ?_⟩ <;> decide, rfl⟩
  intro x hx
  simp only [listS, List.mem_cons, List.not_mem_nil, or_false] at hx
  rcases hx with rfl | rfl
  · exact dyn_wf 2 _ (by decide) (by decide) (by decide) _ (.inl rfl)
  · exact dyn_wf 1 _ (by decide) (by decide) (by decide) _ (.inl rfl)

/-- The hypotheses can be met with a lowered alignment … -/
example : IsAlign c64 (Shrinking.toFit.align c64) ∧ vecS.ShrinkOk listS (Shrinking.toFit.align c64) ∧
    vecS.CapOk listS (Shrinking.toFit.bytes c64) (Shrinking.toFit.align c64) ∧ vecS.shrunkAlign listS 1 = 4 :=
  ⟨⟨0, by decide, rfl⟩, by unfold UVec.ShrinkOk; decide, by unfold UVec.CapOk; decide, by decide⟩

/-- … and `shrink_to_fit` then gives a vector of 12 bytes. -/
example : ∃ v', Shrinking.toFit.run c64 (unalignedP c64 Dyn) env vecS = .ok () v' ∧ v'.byteCap = 12 ∧ v'.align = 4 ∧
    v'.elemsCap = 2 := ⟨_, rfl, rfl, rfl, rfl⟩

example : ∃ v', (Shrinking.capBytes 0 7).run c64 (alignedP c64 Bytes) env vecA = .ok () v' ∧ v'.byteCap = 7 ∧ v'.elemsCap = 3 :=
  ⟨_, rfl, rfl, rfl⟩

/-- A new vector, two pushes of one-byte elements, `shrink_to_fit`. -/
def shrinkScript : Exec (UVec Dyn Nat) Unit := do
  Api.push c64 (unalignedP c64 Dyn) env (dyn 1 [1])
  Api.push c64 (unalignedP c64 Dyn) env (dyn 1 [2])
  Api.shrinkToFit (unalignedP c64 Dyn) env

/-- The elements that a user sees after a computation on a vector of `Dyn`. -/
def seen {α : Type} : Res (UVec Dyn Nat) α → Option (List (Val Dyn Nat))
  | .ok _ v => v.observe c64
  | _ => none

/-- C18 fails: the second element changes from 2 to an uninitialised byte (shown as 0). -/
theorem C18_counterexample :
    seen (shrinkScript (UVec.newAlignPtr c64)) = some [dyn 1 [1], dyn 1 [0]] := by decide

/-- Reserve eight bytes, shrink to five, push an element of five bytes. -/
def capScript : Exec (UVec Dyn Nat) Unit := do
  Api.reserveExactCapacityBytesAlign (unalignedP c64 Dyn) env 2 8 8
  Api.shrinkCapacityBytesTo c64 (unalignedP c64 Dyn) env 2 5
  Api.push c64 (unalignedP c64 Dyn) env (dyn 1 [1, 2, 3, 4, 5])

/-- `byte_len()` and `byte_capacity()`. -/
def lenAndCap {α : Type} : Res (UVec Dyn Nat) α → Option (Option Nat × Nat)
  | .ok _ v => some (v.alignedByteLen c64, v.byteCap)
  | _ => none

/-- Is the outcome undefined behaviour? -/
def isUb {σ α : Type} : Res σ α → Bool
  | .ub => true
  | _ => false

/-- C20 fails: `byte_len()` is 8 and `byte_capacity()` is 5; the next `push` has undefined behaviour. -/
theorem C20_counterexample :
    lenAndCap (capScript (UVec.newAlignPtr c64)) = some (some 8, 5) ∧
    isUb ((do capScript; Api.push c64 (unalignedP c64 Dyn) env (dyn 1 [6])) (UVec.newAlignPtr c64)) = true := by decide

end Verif
