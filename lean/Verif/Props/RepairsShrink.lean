import Verif.Proofs.RepairsShrink
import Verif.Props.Shrink

/-!
# Shrinking destroys the contents for the reasons that DESIGN.md names

C18, C19 and C20 of dynamically aligned elements exclude shrinking that changes the padding (`ShrinkOk`), or leaves a byte capacity that is
not a multiple of the alignment (`CapOk`). The theorems here are about the code with these two places changed (`Model/RepairsShrink.lean`);
they say nothing about the code as it stands. They are not claimed in the manifest.
-/

namespace Verif
open Sample

section
variable {T : UTy} {β : Type} [Inhabited β] {c : Cfg} {v : UVec T β} {xs : List (Val T β)}

/-- C18, C19 and C20 of the corrected code, all methods that shrink: the vector is valid afterwards, in particular the byte capacity is a
multiple of the alignment and there is room for the padding, and the contents are as before. -/
theorem repaired_shrink_unaligned (h : v.Holds c xs) {env : Env (Val T β)} (hv : env.Valid) (he : env.Exact) (s : Shrinking)
    (hs : IsAlign c (s.align c)) :
    (s.run c (unalignedShrinkingP c T) env v).Meets
      (fun _ v' => v'.Holds c xs ∧ v.observe c = some xs ∧ v'.observe c = some xs ∧ v'.drops = v.drops ∧
        v'.elemsCap = max xs.length (min v.elemsCap s.slots) ∧ v'.byteCap ≤ v.byteCap ∧ min v.byteCap (s.bytes c) ≤ v'.byteCap ∧
        (∀ x ∈ xs, x.align ∣ v'.align) ∧ v'.align ≤ v.align)
      (fun _ => False) (env.infoShrink = false ∧ max xs.length (min v.elemsCap s.slots) < v.elemsCap) := by
  rw [s.run_repaired env hs]
  refine (UVec.shrinkToRepaired_meets h hv he _ _ hs).mono (fun _ v' h' => ?_) (fun _ h => h) (fun h => h)
  have hle := UVec.shrunkAlign_le h (s.align c)
  have hia := UVec.shrunkAlign_isAlign h hs
  have hd := hia.dvd_of_le h.al hle
  have hcap := h.cap
  have h1 := le_padTo hia.pos (min (s.bytes c) v.byteCap)
  have h2 := padTo_least hia.pos (Nat.dvd_trans hd (h.capDvd trivial)) (Nat.min_le_right (s.bytes c) v.byteCap)
  have h3 := totalWidth_mono_align hia.pos h.al.pos hd xs
  refine ⟨h'.holds, h.observe_eq, h'.holds.observe_eq, h'.drops, h'.elemsCap, ?_, ?_, h'.holds.elemAl, ?_⟩
  · rcases h'.size with ⟨h4, _⟩ | ⟨h4, _⟩ <;> rw [h4]
    · exact Nat.le_refl _
    · unfold UVec.roundedCap; omega
  · rcases h'.size with ⟨h4, _⟩ | ⟨h4, _⟩ <;> rw [h4]
    · exact Nat.min_le_left _ _
    · unfold UVec.roundedCap; omega
  · rcases h'.size with ⟨_, h4, _⟩ | ⟨_, h4⟩ <;> rw [h4]
    · exact Nat.le_refl _
    · exact hle

/-- `shrink_to_fit` of the corrected code, if the allocator agrees: the smallest capacity and alignment there can be. -/
theorem repaired_shrink_to_fit_unaligned (h : v.Holds c xs) {env : Env (Val T β)} (hv : env.Valid) (he : env.Exact)
    (hi : env.infoShrink = true) (ha : ∀ l, env.alloc l ≠ none) :
    ∃ v', Api.shrinkToFit (unalignedShrinkingP c T) env v = .ok () v' ∧ v'.Holds c xs ∧ v'.elemsCap = xs.length ∧
      v'.align = v.shrunkAlign xs 1 ∧ v'.byteCap = totalWidth (padTo (v.shrunkAlign xs 1)) xs := by
  have h1 : IsAlign c 1 := isAlign_one_of h.al
  have key := UVec.shrinkToRepaired_meets h hv he 0 0 h1
  have e : Api.shrinkToFit (unalignedShrinkingP c T) env v = UVec.shrinkToRepaired c env 0 0 1 v := Shrinking.run_repaired env .toFit h1 v
  rw [← e] at key
  cases hr : Api.shrinkToFit (unalignedShrinkingP c T) env v with
  | ok u v' =>
    rw [hr] at key
    refine ⟨v', rfl, key.holds, by rw [key.elemsCap]; omega, ?_⟩
    rcases key.size with ⟨_, _, h2⟩ | ⟨h2, h3⟩
    · exact absurd h2 (ha _)
    · refine ⟨h3, ?_⟩
      rw [h2]
      unfold UVec.roundedCap
      rw [Nat.zero_min, padTo_zero]
      omega
  | panic v' => rw [hr] at key; exact key.elim
  | abort => rw [hr] at key; rw [hi] at key; exact absurd key.1 (by simp)
  | ub => rw [hr] at key; exact key.elim

end

/-! ## The witnesses of the counterexamples, with the corrected functions -/

/-- `C18_counterexample` -/
example : seen ((do
    Api.push c64 (unalignedShrinkingP c64 Dyn) env (dyn 1 [1])
    Api.push c64 (unalignedShrinkingP c64 Dyn) env (dyn 1 [2])
    Api.shrinkToFit (unalignedShrinkingP c64 Dyn) env) (UVec.newAlignPtr c64)) = some [dyn 1 [1], dyn 1 [2]] := by decide

/-- `C20_counterexample`: the byte capacity is 8. -/
example : lenAndCap ((do
    Api.reserveExactCapacityBytesAlign (unalignedShrinkingP c64 Dyn) env 2 8 8
    Api.shrinkCapacityBytesTo c64 (unalignedShrinkingP c64 Dyn) env 2 5
    Api.push c64 (unalignedShrinkingP c64 Dyn) env (dyn 1 [1, 2, 3, 4, 5])) (UVec.newAlignPtr c64)) = some (some 8, 8) := by decide

/-- `C18_counterexample_ub` -/
example : seen ((do
    Api.push c64 (unalignedShrinkingP c64 Dyn) env (dyn 1 [1])
    Api.push c64 (unalignedShrinkingP c64 Dyn) env (dyn 1 [2])
    Api.push c64 (unalignedShrinkingP c64 Dyn) env (dyn 1 [3])
    Api.push c64 (unalignedShrinkingP c64 Dyn) env (dyn 1 [4])
    Api.shrinkToFit (unalignedShrinkingP c64 Dyn) env) (UVec.newAlignPtr c64)) =
      some [dyn 1 [1], dyn 1 [2], dyn 1 [3], dyn 1 [4]] := by decide

/-- Changing the sign in `realign_down` and storing the end offsets is not enough. With the elements `[1]` and `[2]` at offsets 0 and 8, the
second one is to be moved to offset 1. The shift is still 0 when it is reached, so eight bytes are copied onto themselves and the end offset
stays 9: the difference between the two paddings of the first element is never added. The loop changed altogether moves it. From the third element on the sign does
matter: `[3]` at offset 16 is fetched from there, but moved to 9 instead of 2. -/
theorem repaired_sign_not_enough :
    let h : Heap Nat := { mem := fun i => if i = 0 then 1 else if i = 8 then 2 else 0, block := some ⟨64, 16, 16, 8⟩, leaks := 0 }
    (UVec.realignDownSigned (T := Dyn) c64 8 1 64 1 [⟨(1, 1), 9⟩] 0 h).map (fun r => (r.1.map (·.endOff), r.2.mem 1)) = some ([9], 0) ∧
    (UVec.realignDownLoopRepaired (T := Dyn) c64 8 1 64 [⟨(1, 1), 1⟩, ⟨(1, 1), 9⟩] 0 0 h).map (fun r => (r.1.map (·.endOff), r.2.mem 1)) =
      some ([1, 2], 2) ∧
    let h3 : Heap Nat := { mem := fun i => if i = 0 then 1 else if i = 8 then 2 else if i = 16 then 3 else 0, block := some ⟨64, 24, 24, 8⟩, leaks := 0 }
    (UVec.realignDownSigned (T := Dyn) c64 8 1 64 1 [⟨(1, 1), 9⟩, ⟨(1, 1), 17⟩] 0 h3).map
      (fun r => (r.1.map (·.endOff), r.2.mem 1, r.2.mem 2, r.2.mem 9)) = some ([9, 10], 0, 0, 3) ∧
    (UVec.realignDownLoopRepaired (T := Dyn) c64 8 1 64 [⟨(1, 1), 1⟩, ⟨(1, 1), 9⟩, ⟨(1, 1), 17⟩] 0 0 h3).map
      (fun r => (r.1.map (·.endOff), r.2.mem 1, r.2.mem 2)) = some ([1, 2, 3], 2, 3) := by decide

end Verif
