import Verif.Proofs.RepairsReserve
import Verif.Props.Reserve
import Verif.Props.Push

/-!
# The exception for elements without bytes has the cause that DESIGN.md names

C01, C03 and C12 of dynamically aligned elements exclude alignments asked for without bytes (`ZstOk`). The theorems here are about the code with
the reservation changed so that it raises the alignment also if no memory is needed (`Model/Repairs.lean`); they say nothing about the code
as it stands. The exception is then not needed. They are not claimed in the manifest.
-/

namespace Verif
open Sample Reservation

section
variable {T : UTy} {β : Type} [Inhabited β] {c : Cfg} {G : Prop} {v : UVec T β} {xs : List (Val T β)}

/-- C12 of the corrected reservation, the methods without `try_`. -/
theorem repaired_reserve_unaligned (h : v.Represents G c xs) {env : Env (Val T β)} (hv : env.Valid) (he : G → env.Exact) (q : Reservation)
    (hal : IsAlign c q.align) :
    (q.run c (unalignedReservingP c T) env v).Meets
      (fun _ v' => v'.Represents G c xs ∧ v'.drops = v.drops ∧ Roomy (unalignedReservingP c T) v' q.slots q.bytes ∧
        v.align ≤ v'.align ∧ q.align ≤ v'.align)
      (fun v' => v'.Represents G c xs ∧ v'.drops = v.drops ∧ SameBytes (unalignedReservingP c T) v v')
      (∃ n l, env.Refuses n l) :=
  ((UVec.implReserving G c T).run_reserve_meets rfl (fun {_ _} h => (UVec.Represents.al h).pos) (isAlign_one_of hal) h ⟨hv, he⟩ q hal).withEq.mono
    (fun _ _ h' => ⟨h'.1.holds, h'.1.drops, h'.1.roomy, h'.1.alignMono, UVec.run_fits h hv he q hal h'.1.holds h'.2⟩)
    (fun _ h' => ⟨h'.1.holds, h'.1.drops, h'.1.same (UVec.implReserving G c T) h⟩) (fun h => ⟨_, _, h⟩)

/-- C12 of the corrected reservation, the `try_` methods. -/
theorem repaired_try_reserve_unaligned (h : v.Represents G c xs) {env : Env (Val T β)} (hv : env.Valid) (he : G → env.Exact) (q : Reservation)
    (hal : IsAlign c q.align) :
    (q.attempt c (unalignedReservingP c T) env v).Meets
      (fun r v' => r = .ok () → v'.Represents G c xs ∧ v'.drops = v.drops ∧ Roomy (unalignedReservingP c T) v' q.slots q.bytes ∧
        v.align ≤ v'.align ∧ q.align ≤ v'.align)
      (fun v' => v'.Represents G c xs ∧ v'.drops = v.drops) False := by
  refine ((UVec.implReserving G c T).attempt_meets rfl (fun {_ _} h => (UVec.Represents.al h).pos) (isAlign_one_of hal) h
    ⟨hv, he⟩ q hal).withEq.mono ?_ (fun _ h => ⟨h.2.1.holds, h.2.1.drops⟩) id
  rintro r v' ⟨⟨rfl, h1⟩ | ⟨e, rfl, _⟩, h2⟩ h0
  · exact ⟨h1.holds, h1.drops, h1.roomy, h1.alignMono, UVec.attempt_fits h hv he q hal h1.holds h2⟩
  · cases h0

/-- C01 of the corrected code. -/
theorem repaired_push_unaligned (h : v.Holds c xs) {env : Env (Val T β)} (hv : env.Valid) (he : env.Exact) {x : Val T β} (hx : x.WF c) :
    (Api.push c (unalignedReservingP c T) env x v).Meets
      (fun _ v' => v'.Holds c (xs ++ [x]) ∧ v'.drops = v.drops)
      (fun v' => v'.Holds c xs ∧ v'.drops = v.drops ∧
        (env.Refuses (xs.length + 1) (v.request xs (x.size - v.spare xs) x.align) ∨
          v.TooLarge c xs 1 (x.size - v.spare xs) x.align))
      (env.Refuses (xs.length + 1) (v.request xs (x.size - v.spare xs) x.align)) := by
  let I := UVec.implReserving (β := β) True c T
  unfold Api.push
  refine Res.Meets.bind (((I.reserveCapacityBytesAlign_meets h ⟨hv, fun _ => he⟩ 1 x.size hx.align_pow).withEq).mono (fun _ _ h => h)
    (fun _ h => ⟨h.1.holds, h.1.drops, h.2⟩) (fun h => h)) ?_
  rintro _ v1 ⟨hE, hr⟩
  have hf : x.align ≤ v1.align := UVec.reserving_fits h hv (fun _ => he) hx.align_pow (UVec.served hr)
  obtain ⟨v2, h1, h2, h3, _⟩ := I.push hE.holds hx hf hE.recs hE.room (hE.roomy _ (Nat.le_refl _) (fun _ => .inl (h.capDvd trivial)) hf)
  exact .of_ok h1 ⟨h2, h3.trans hE.drops⟩

/-- C03 of the corrected code: with this and the corrected copying of `insert` no condition is left. -/
theorem repaired_insert_unaligned_any (h : v.Holds c xs) {env : Env (Val T β)} (hv : env.Valid) (he : env.Exact) {x : Val T β}
    (hx : x.WF c) {i : Nat} (hi : i ≤ xs.length) :
    (Api.insert c (unalignedReservingP c T) env i x v).Meets
      (fun _ v' => v'.Holds c (xs.take i ++ x :: xs.drop i) ∧ v'.drops = v.drops)
      (fun v' => v'.Holds c xs ∧ v'.drops = v.drops ∧
        (env.Refuses (xs.length + 1) (v.request xs (x.size - v.spare xs) x.align) ∨
          v.TooLarge c xs 1 (x.size - v.spare xs) x.align))
      (env.Refuses (xs.length + 1) (v.request xs (x.size - v.spare xs) x.align)) := by
  let I := UVec.implReserving (β := β) True c T
  unfold Api.insert
  rw [Exec.get_bind, Exec.assert_bind (by rw [I.len_eq h]; exact hi)]
  refine Res.Meets.bind (((I.reserveCapacityBytesAlign_meets h ⟨hv, fun _ => he⟩ 1 x.size hx.align_pow).withEq).mono (fun _ _ h => h)
    (fun _ h => ⟨h.1.holds, h.1.drops, h.2⟩) (fun h => h)) ?_
  rintro _ v1 ⟨hE, hr⟩
  have hf : x.align ≤ v1.align := UVec.reserving_fits h hv (fun _ => he) hx.align_pow (UVec.served hr)
  obtain ⟨v2, h1, h2, h3, _⟩ := I.insert hE.holds hx hf hE.recs hE.room (hE.roomy _ (Nat.le_refl _) (fun _ => .inl (h.capDvd trivial)) hf)
    hi trivial
  exact .of_ok h1 ⟨h2, h3.trans hE.drops⟩

end

/-! ## The witnesses of the counterexamples, with the corrected functions -/

/-- `C12_counterexample` -/
example : sizes (unalignedReservingP (β := Nat) c64 Dyn)
      (Reservation.run c64 (unalignedReservingP c64 Dyn) env (.capBytesAlign 0 0 16) (UVec.newAlignPtr c64)) = some (0, some 0, some 0, 16) := by
  decide

/-- `C12_counterexample_with_capacity` -/
example : sizes (unalignedReservingP (β := Nat) c64 Dyn) (Api.withCapacityBytesAlign (unalignedReservingP c64 Dyn) env 0 0 16) =
    some (0, some 0, some 0, 16) := by decide

/-- `C01_counterexample`: no panic with debug assertions, and without, both elements can be read. -/
example : (∃ v', Api.push c64d (unalignedReservingP c64d Dyn) envOdd (dyn 16 []) (UVec.newAlignPtr c64d) = .ok () v') ∧
    ∃ v' v'', Api.push c64 (unalignedReservingP c64 Dyn) envOdd (dyn 16 []) (UVec.newAlignPtr c64) = .ok () v' ∧
      Api.push c64 (unalignedReservingP c64 Dyn) envOdd (dyn 1 [5]) v' = .ok () v'' ∧
      v''.observe c64 = some [dyn 16 [], dyn 1 [5]] := ⟨⟨_, rfl⟩, _, _, rfl, rfl, rfl⟩

/-- Insertion of an element without bytes. -/
example : ∃ v' v'', Api.push c64 (unalignedReservingP c64 Dyn) env (dyn 8 []) (UVec.newAlignPtr c64) = .ok () v' ∧
    Api.insert c64 (unalignedReservingP c64 Dyn) env 0 (dyn 32 []) v' = .ok () v'' ∧ v''.align = 32 ∧
    v''.observe c64 = some [dyn 32 [], dyn 8 []] := ⟨_, _, rfl, rfl, rfl, rfl⟩

end Verif
