import Verif.Proofs.ImplReserve
import Verif.Proofs.UImpl
import Verif.Proofs.AImpl

set_option linter.unusedSectionVars false

/-!
# The reservation methods of the two vectors
-/

namespace Verif
variable {T : UTy} {A : ATy} {β : Type} [Inhabited β] {c : Cfg}

theorem isAlign_one_of {c : Cfg} {a : Nat} (h : IsAlign c a) : IsAlign c 1 := by
  obtain ⟨k, hk, _⟩ := h
  exact ⟨0, by omega, rfl⟩

theorem attempt_unaligned {G : Prop} {v : UVec T β} {xs : List (Val T β)} (h : v.Represents G c xs) {env : Env (Val T β)} (hv : env.Valid)
    (he : G → env.Exact) (q : Reservation) (hal : IsAlign c q.align) :
    (q.attempt c (unalignedP c T) env v).Meets ((UVec.impl G c T).Tried env v xs q)
      (fun v' => (c.debug = true ∧ q.Asserts) ∧ (UVec.impl G c T).Kept v v' xs ∧ (UVec.impl G c T).Failing env v xs q) False :=
  (UVec.impl G c T).attempt_meets rfl (fun {_ _} h => (UVec.Represents.al h).pos) (isAlign_one_of hal) h ⟨hv, he⟩ q hal

theorem attempt_aligned (hA : A.Fits c) {v : AVec A β} {xs : List (Val A.ty β)} (h : v.Holds c xs)
    {env : Env (Val A.ty β)} (hv : env.Valid) (q : Reservation) (hal : IsAlign c q.align) :
    (q.attempt c (alignedP c A) env v).Meets ((AVec.implF hA).Tried env v xs q)
      (fun v' => (c.debug = true ∧ q.Asserts) ∧ (AVec.implF hA).Kept v v' xs ∧ (AVec.implF hA).Failing env v xs q) False :=
  (AVec.implF hA).attempt_meets rfl (fun {_ _} _ => trivial) (isAlign_one_of hal) h hv q hal

theorem run_unaligned {G : Prop} {v : UVec T β} {xs : List (Val T β)} (h : v.Represents G c xs) {env : Env (Val T β)} (hv : env.Valid)
    (he : G → env.Exact) (q : Reservation) (hal : IsAlign c q.align) :
    (q.run c (unalignedP c T) env v).Meets (fun _ v' => (UVec.impl G c T).Served v v' xs q.slots q.bytes q.align)
      (fun v' => (UVec.impl G c T).Kept v v' xs ∧ (UVec.impl G c T).Failing env v xs q) ((UVec.impl G c T).Denied env v xs q) :=
  (UVec.impl G c T).run_reserve_meets rfl (fun {_ _} h => (UVec.Represents.al h).pos) (isAlign_one_of hal) h ⟨hv, he⟩ q hal

theorem run_aligned (hA : A.Fits c) {v : AVec A β} {xs : List (Val A.ty β)} (h : v.Holds c xs)
    {env : Env (Val A.ty β)} (hv : env.Valid) (q : Reservation) (hal : IsAlign c q.align) :
    (q.run c (alignedP c A) env v).Meets (fun _ v' => (AVec.implF hA).Served v v' xs q.slots q.bytes q.align)
      (fun v' => (AVec.implF hA).Kept v v' xs ∧ (AVec.implF hA).Failing env v xs q) ((AVec.implF hA).Denied env v xs q) :=
  (AVec.implF hA).run_reserve_meets rfl (fun {_ _} _ => trivial) (isAlign_one_of hal) h hv q hal

theorem AVec.new_holds (hA : A.Fits c) : (AVec.new : AVec A β).Holds c [] :=
  ⟨fun _ h => absurd h List.not_mem_nil, fun _ h => absurd h List.not_mem_nil, rfl, Nat.zero_le _, Nat.le_refl _, Nat.zero_le _, trivial,
    ⟨hA.al.pos, Nat.dvd_refl _, rfl⟩, rfl⟩

theorem UVec.newAlignPtr_holds (hu : IsAlign c c.usizeAlign) : (UVec.newAlignPtr c : UVec T β).Holds c [] :=
  ⟨fun _ h => absurd h List.not_mem_nil, hu, fun _ h => absurd h List.not_mem_nil, rfl, Nat.zero_le _, Nat.le_refl _,
    fun _ => Nat.dvd_zero _, hu.room (Nat.dvd_zero _) (Nat.zero_le _), trivial, ⟨hu.pos, Nat.dvd_refl _, rfl⟩, rfl⟩

theorem UVec.newAlignPtr_represents {G : Prop} (hu : IsAlign c c.usizeAlign) : (UVec.newAlignPtr c : UVec T β).Represents G c [] := by
  have h := UVec.newAlignPtr_holds (T := T) (β := β) hu
  exact ⟨h.wf, h.al, h.elemAl, h.infos, h.recs, h.cap, fun _ => h.capDvd trivial, h.room, h.mem, h.block, h.leaks⟩

theorem UVec.newAlign1_holds {G : Prop} (h1 : IsAlign c 1) : (UVec.newAlign1 : UVec T β).Represents G c [] :=
  ⟨fun _ h => absurd h List.not_mem_nil, h1, fun _ h => absurd h List.not_mem_nil, rfl, Nat.zero_le _, Nat.le_refl _,
    fun _ => Nat.dvd_zero _, h1.room (Nat.dvd_zero _) (Nat.zero_le _), trivial, ⟨Nat.one_pos, Nat.dvd_refl _, rfl⟩, rfl⟩

end Verif
