import Verif.Proofs.ZstExact
import Verif.Props.Reserve
import Verif.Props.Push

/-!
# C01, C12, C24: zero-sized elements with a strict alignment, outside the covered cases

The condition `ZstOk` in the theorems about dynamically aligned vectors is necessary. A vector without memory that is asked for a
stricter alignment and no bytes always succeeds and never raises its alignment. Pushing a zero-sized element that needs such an
alignment always panics in a debug build. In a release build, and with `push_with` in every build, it returns, and as soon as an
element with bytes gets memory that is not aligned for the first one, reading the first one is undefined behaviour.
-/

namespace Verif
open Sample

section
variable {T : UTy} {β : Type} [Inhabited β] {c : Cfg} {v : UVec T β} {xs : List (Val T β)}

/-- C12: the statement for reservations of alignment only on a vector without memory. They return `Ok`, or report that the records
do not fit; `align()` stays below what was asked for in both cases. -/
theorem C12_try_unaligned_alignOnly (h : v.Holds c xs) (env : Env (Val T β)) {al : Nat} (hal : IsAlign c al)
    (h0 : v.byteCap = 0) (hlt : v.align < al) (n : Nat) :
    ∃ r v', Reservation.attempt c (unalignedP c T) env (.capBytesAlign n 0 al) v = .ok r v' ∧ v'.Holds c xs ∧ v'.drops = v.drops ∧
      (unalignedP c T).align v' = (unalignedP c T).align v ∧ (unalignedP c T).align v' < al ∧
      (xs.length + n ≤ v.elemsCap → r = .ok ()) := by
  rcases UVec.tryReserve_alignOnly h env hal h0 hlt n with ⟨cap, h1, h2, h3⟩ | ⟨e, h1, h2, h3⟩
  · exact ⟨_, _, h1, UVec.alignOnly_holds (h.withElemsCap (n := cap) (by omega)) hal h0 hlt, rfl, rfl, hlt, fun _ => rfl⟩
  · exact ⟨_, _, h1, h, rfl, rfl, hlt, fun h4 => by omega⟩

/-- C01, debug builds: pushing a zero-sized element with a stricter alignment onto a vector without memory always panics, although
nothing is missing. -/
theorem C01_push_zst_unaligned_debug (hd : c.debug = true) (h : v.Holds c xs) (env : Env (Val T β)) {x : Val T β} (hx : x.WF c)
    (h0 : v.byteCap = 0) (hx0 : x.size = 0) (hlt : v.align < x.align)
    (hr : v.elemsCap ≤ xs.length → xs.length < c.infoMax ∧ ∃ m, env.infoGrow (xs.length + 1) = .ok m) :
    ∃ v', Api.push c (unalignedP c T) env x v = .panic v' ∧ v'.Holds c xs := by
  obtain ⟨cap, h1, _, h2⟩ := UVec.push_over h env hx h0 hx0 hlt hr
  rw [hd, if_pos rfl] at h2
  exact ⟨_, h2, UVec.alignOnly_holds (h.withElemsCap (n := cap) (by omega)) hx.align_pow h0 hlt⟩

/-- C01, release builds: the element is added, but the vector's alignment stays below that of the element, so the vector is not in a
state that represents the longer list. -/
theorem C01_push_zst_unaligned_release (hd : c.debug = false) (h : v.Holds c xs) (env : Env (Val T β)) {x : Val T β} (hx : x.WF c)
    (h0 : v.byteCap = 0) (hx0 : x.size = 0) (hlt : v.align < x.align)
    (hr : v.elemsCap ≤ xs.length → xs.length < c.infoMax ∧ ∃ m, env.infoGrow (xs.length + 1) = .ok m) :
    ∃ v', Api.push c (unalignedP c T) env x v = .ok () v' ∧ (unalignedP c T).len v' = xs.length + 1 ∧
      (unalignedP c T).align v' < x.align ∧ ¬ v'.Holds c (xs ++ [x]) := by
  obtain ⟨cap, h1, _, h2⟩ := UVec.push_over h env hx h0 hx0 hlt hr
  rw [hd, if_neg (by simp)] at h2
  refine ⟨_, h2, ?_, hlt, fun h3 => ?_⟩
  · show (UVec.overaligned v xs x cap).elems.length = _
    simp [UVec.overaligned]
  · have := h3.elemAl x (by simp)
    exact absurd (Nat.le_of_dvd h.al.pos this) (Nat.not_le.2 hlt)

/-- C04: the same with `push_with`, in every build. -/
theorem C04_pushWith_zst_unaligned (h : v.Holds c xs) (env : Env (Val T β)) {x : Val T β} (hx : x.WF c)
    (h0 : v.byteCap = 0) (hx0 : x.size = 0) (hlt : v.align < x.align)
    (hr : v.elemsCap ≤ xs.length → xs.length < c.infoMax ∧ ∃ m, env.infoGrow (xs.length + 1) = .ok m) (ds : List (Val T β)) :
    ∃ v', Api.pushWithRun (unalignedP c T) env (given env x) (ds, v) = .ok () (ds, v') ∧ (unalignedP c T).len v' = xs.length + 1 ∧
      (unalignedP c T).align v' < x.align ∧ ¬ v'.Holds c (xs ++ [x]) := by
  obtain ⟨cap, h1, _, h2⟩ := UVec.pushWith_over h env hx h0 hx0 hlt hr ds
  refine ⟨_, h2, ?_, hlt, fun h3 => ?_⟩
  · show (UVec.overaligned v xs x cap).elems.length = _
    simp [UVec.overaligned]
  · have := h3.elemAl x (by simp)
    exact absurd (Nat.le_of_dvd h.al.pos this) (Nat.not_le.2 hlt)

/-- C24: what follows. After pushing `x` (zero-sized, stricter alignment) and then any `y` with bytes, for which the allocator
returns memory with the alignment that it was asked for but not that of `x`, reading `x` is undefined behaviour. -/
theorem C24_push_zst_unaligned_misaligned (hd : c.debug = false) (h : v.Holds c xs) {env : Env (Val T β)}
    {x y : Val T β} (hx : x.WF c) (h0 : v.byteCap = 0) (hx0 : x.size = 0) (hlt : v.align < x.align)
    (hr : xs.length + 2 ≤ v.elemsCap) (hy : y.WF c) (hy0 : 0 < y.size) (hya : y.align ≤ v.align)
    (hfit : padTo v.align y.size ≤ c.isizeMax) {p : Nat} (ha : env.alloc ⟨padTo v.align y.size, v.align⟩ = some (p, 0))
    (hp : ¬ x.align ∣ p) :
    ∃ v' v'', Api.push c (unalignedP c T) env x v = .ok () v' ∧ Api.push c (unalignedP c T) env y v' = .ok () v'' ∧
      Api.get (unalignedP c T) v'' xs.length = none := by
  obtain ⟨cap, h1, h1', h2⟩ := UVec.push_over h env hx h0 hx0 hlt (fun _ => by omega)
  rw [hd, if_neg (by simp)] at h2
  obtain ⟨v'', h3, h4⟩ := UVec.push_over_next h (x := x) h0 hx0 hy hy0 hya (cap := cap) (by have := h1' (by omega); omega) hfit ha hp
  exact ⟨_, v'', h2, h3, h4⟩

/-- C24: the same with `push_with`, in every build. -/
theorem C24_pushWith_zst_unaligned_misaligned (h : v.Holds c xs) {env : Env (Val T β)}
    {x y : Val T β} (hx : x.WF c) (h0 : v.byteCap = 0) (hx0 : x.size = 0) (hlt : v.align < x.align)
    (hr : xs.length + 2 ≤ v.elemsCap) (hy : y.WF c) (hy0 : 0 < y.size) (hya : y.align ≤ v.align)
    (hfit : padTo v.align y.size ≤ c.isizeMax) {p : Nat} (ha : env.alloc ⟨padTo v.align y.size, v.align⟩ = some (p, 0))
    (hp : ¬ x.align ∣ p) (ds : List (Val T β)) :
    ∃ v' v'', Api.pushWithRun (unalignedP c T) env (given env x) (ds, v) = .ok () (ds, v') ∧
      Api.push c (unalignedP c T) env y v' = .ok () v'' ∧ Api.get (unalignedP c T) v'' xs.length = none := by
  obtain ⟨cap, h1, h1', h2⟩ := UVec.pushWith_over h env hx h0 hx0 hlt (fun _ => by omega) ds
  obtain ⟨v'', h3, h4⟩ := UVec.push_over_next h (x := x) h0 hx0 hy hy0 hya (cap := cap) (by have := h1' (by omega); omega) hfit ha hp
  exact ⟨_, v'', h2, h3, h4⟩

end

/-- A vector without memory, of alignment 8, with one zero-sized element and room for four. -/
def vecNil : UVec Dyn Nat := { (UVec.newAlignPtr c64 : UVec Dyn Nat) with elems := [⟨(dyn 2 []).md, 0⟩], elemsCap := 4 }

theorem vecNil_holds (c : Cfg) (hc : c = c64 ∨ c = c64d) : vecNil.Holds c [dyn 2 []] := by
  rcases hc with rfl | rfl
  all_goals
    refine ⟨?_, ⟨3, by decide, rfl⟩, ?_, rfl, by decide, by decide, by decide, by decide, ?_, ⟨by decide, by decide, rfl⟩, rfl⟩
    · intro x hx
      rw [List.mem_singleton] at hx
      subst hx
      exact dyn_wf 1 _ (by decide) (by decide) (by decide) _ (by simp)
    · intro x hx
      rw [List.mem_singleton] at hx
      subst hx
      decide
    · exact ⟨fun j hj => absurd hj (Nat.not_lt_zero j), trivial⟩

/-- The hypotheses of all these theorems can be met together. -/
example : vecNil.Holds c64 [dyn 2 []] ∧ vecNil.Holds c64d [dyn 2 []] ∧ (dyn 16 []).WF c64 ∧ (dyn 16 []).WF c64d ∧
    vecNil.byteCap = 0 ∧ (dyn 16 []).size = 0 ∧ vecNil.align < (dyn 16 []).align ∧ [dyn 2 []].length + 2 ≤ vecNil.elemsCap ∧
    (dyn 4 [1, 2, 3, 4]).WF c64 ∧ (dyn 4 [1, 2, 3, 4]).align ≤ vecNil.align ∧ padTo vecNil.align 4 ≤ c64.isizeMax ∧
    envOdd.alloc ⟨padTo vecNil.align 4, vecNil.align⟩ = some (24, 0) ∧ ¬ (dyn 16 []).align ∣ 24 :=
  ⟨vecNil_holds _ (.inl rfl), vecNil_holds _ (.inr rfl), dyn_wf 4 _ (by decide) (by decide) (by decide) _ (.inl rfl),
    dyn_wf 4 _ (by decide) (by decide) (by decide) _ (.inr rfl), rfl, rfl, by decide, by decide,
    dyn_wf 2 _ (by decide) (by decide) (by decide) _ (.inl rfl), by decide, by decide, rfl, by decide⟩

end Verif
