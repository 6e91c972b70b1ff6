import Verif.Proofs.ReserveInst
import Verif.Spec.Samples

/-!
# C12, C13, C14, C17: reservations
-/

namespace Verif
open Reservation
variable {T : UTy} {A : ATy} {β : Type} [Inhabited β] {c : Cfg}

/-! ## C12 -/

/-- C12, statically aligned elements: when a `try_reserve…` method succeeds, the contents are as before and there is room for
what was asked for. -/
theorem C12_try_aligned (hA : A.Fits c) {v : AVec A β} {xs : List (Val A.ty β)} (h : v.Holds c xs)
    {env : Env (Val A.ty β)} (hv : env.Valid) (q : Reservation) (hal : IsAlign c q.align) :
    (q.attempt c (alignedP c A) env v).Meets
      (fun r v' => r = .ok () → v'.Holds c xs ∧ v'.drops = v.drops ∧ Roomy (alignedP c A) v' q.slots q.bytes)
      (fun v' => v'.Holds c xs ∧ v'.drops = v.drops) False := by
  refine (attempt_aligned hA h hv q hal).mono ?_ (fun _ h => ⟨h.2.1.holds, h.2.1.drops⟩) id
  rintro r v' (⟨rfl, h1⟩ | ⟨e, rfl, _⟩) h0
  · exact ⟨h1.holds, h1.drops, h1.roomy⟩
  · cases h0

/-- C12, dynamically aligned elements. The clause on the alignment excludes the case that the vector has no memory and no bytes
are asked for, see `C12_counterexample`. -/
theorem C12_try_unaligned_partial {G : Prop} {v : UVec T β} {xs : List (Val T β)} (h : v.Represents G c xs)
    {env : Env (Val T β)} (hv : env.Valid) (he : G → env.Exact) (q : Reservation) (hal : IsAlign c q.align) :
    (q.attempt c (unalignedP c T) env v).Meets
      (fun r v' => r = .ok () → v'.Represents G c xs ∧ v'.drops = v.drops ∧ Roomy (unalignedP c T) v' q.slots q.bytes ∧
        v.align ≤ v'.align ∧ (v.ZstOk q.bytes q.align → q.align ≤ v'.align))
      (fun v' => v'.Represents G c xs ∧ v'.drops = v.drops) False := by
  refine (attempt_unaligned h hv he q hal).mono ?_ (fun _ h => ⟨h.2.1.holds, h.2.1.drops⟩) id
  rintro r v' (⟨rfl, h1⟩ | ⟨e, rfl, _⟩) h0
  · exact ⟨h1.holds, h1.drops, h1.roomy, h1.alignMono, h1.fits⟩
  · cases h0

/-- C12 for the methods without `try_`, statically aligned elements: they return with the room asked for, or unwind with the
vector unchanged, or abort because the environment refuses the memory. -/
theorem C12_run_aligned (hA : A.Fits c) {v : AVec A β} {xs : List (Val A.ty β)} (h : v.Holds c xs)
    {env : Env (Val A.ty β)} (hv : env.Valid) (q : Reservation) (hal : IsAlign c q.align) :
    (q.run c (alignedP c A) env v).Meets
      (fun _ v' => v'.Holds c xs ∧ v'.drops = v.drops ∧ Roomy (alignedP c A) v' q.slots q.bytes)
      (fun v' => v'.Holds c xs ∧ v'.drops = v.drops ∧ SameBytes (alignedP c A) v v')
      (∃ n l, env.Refuses n l) :=
  (run_aligned hA h hv q hal).mono (fun _ _ h => ⟨h.holds, h.drops, h.roomy⟩)
    (fun _ h' => ⟨h'.1.holds, h'.1.drops, h'.1.same (AVec.implF hA) h⟩) (fun h => ⟨_, _, h⟩)

/-- C12 for the methods without `try_`, dynamically aligned elements. -/
theorem C12_run_unaligned_partial {G : Prop} {v : UVec T β} {xs : List (Val T β)} (h : v.Represents G c xs)
    {env : Env (Val T β)} (hv : env.Valid) (he : G → env.Exact) (q : Reservation) (hal : IsAlign c q.align) :
    (q.run c (unalignedP c T) env v).Meets
      (fun _ v' => v'.Represents G c xs ∧ v'.drops = v.drops ∧ Roomy (unalignedP c T) v' q.slots q.bytes ∧
        v.align ≤ v'.align ∧ (v.ZstOk q.bytes q.align → q.align ≤ v'.align))
      (fun v' => v'.Represents G c xs ∧ v'.drops = v.drops ∧ SameBytes (unalignedP c T) v v')
      (∃ n l, env.Refuses n l) :=
  (run_unaligned h hv he q hal).mono (fun _ _ h => ⟨h.holds, h.drops, h.roomy, h.alignMono, h.fits⟩)
    (fun _ h' => ⟨h'.1.holds, h'.1.drops, h'.1.same (UVec.impl G c T) h⟩) (fun h => ⟨_, _, h⟩)

/-- C12, construction with a capacity, statically aligned elements: an empty vector with the room asked for. -/
theorem C12_with_capacity_aligned (hA : A.Fits c) {env : Env (Val A.ty β)} (hv : env.Valid) (n b : Nat) {al : Nat}
    (hal : IsAlign c al) :
    (Api.withCapacityBytesAlign (alignedP c A) env n b al).Meets
      (fun _ v' => v'.Holds c [] ∧ v'.drops = [] ∧ Roomy (alignedP c A) v' n b) (fun v' => v'.Holds c []) (∃ n l, env.Refuses n l) ∧
    (Api.withCapacityBytes (alignedP c A) env n b).Meets
      (fun _ v' => v'.Holds c [] ∧ v'.drops = [] ∧ Roomy (alignedP c A) v' n b) (fun v' => v'.Holds c []) (∃ n l, env.Refuses n l) ∧
    (Api.withCapacity (alignedP c A) env n).Meets
      (fun _ v' => v'.Holds c [] ∧ v'.drops = [] ∧ Roomy (alignedP c A) v' n 0) (fun v' => v'.Holds c []) (∃ n l, env.Refuses n l) := by
  have h0 : (AVec.new : AVec A β).Holds c [] := AVec.new_holds hA
  have h1 := isAlign_one_of hal
  exact ⟨(C12_run_aligned hA h0 hv (.exactCapBytesAlign n b al) hal).mono (fun _ _ h => h) (fun _ h => h.1) id,
    (C12_run_aligned hA h0 hv (.exactCapBytes n b) h1).mono (fun _ _ h => h) (fun _ h => h.1) id,
    (C12_run_aligned hA h0 hv (.exact n) h1).mono (fun _ _ h => h) (fun _ h => h.1) id⟩

/-- C12, construction with a capacity, dynamically aligned elements. The alignment is the one asked for unless no bytes are asked
for; if none is asked for, it is that of `usize`. -/
theorem C12_with_capacity_unaligned_partial {G : Prop} (hu : IsAlign c c.usizeAlign) {env : Env (Val T β)} (hv : env.Valid) (he : G → env.Exact)
    (n b : Nat) {al : Nat} (hal : IsAlign c al) :
    (Api.withCapacityBytesAlign (unalignedP c T) env n b al).Meets
      (fun _ v' => v'.Represents G c [] ∧ v'.drops = [] ∧ Roomy (unalignedP c T) v' n b ∧ (b ≠ 0 → v'.align = al))
      (fun v' => v'.Represents G c []) (∃ n l, env.Refuses n l) ∧
    (Api.withCapacityBytes (unalignedP c T) env n b).Meets
      (fun _ v' => v'.Represents G c [] ∧ v'.drops = [] ∧ Roomy (unalignedP c T) v' n b ∧ v'.align = c.usizeAlign) (fun v' => v'.Represents G c []) (∃ n l, env.Refuses n l) ∧
    (Api.withCapacity (unalignedP c T) env n).Meets
      (fun _ v' => v'.Represents G c [] ∧ v'.drops = [] ∧ Roomy (unalignedP c T) v' n 0 ∧ v'.align = c.usizeAlign) (fun v' => v'.Represents G c []) (∃ n l, env.Refuses n l) := by
  have h1 := isAlign_one_of hal
  have h0 : (UVec.newAlignPtr c : UVec T β).Represents G c [] := UVec.newAlignPtr_represents hu
  have h0' : (UVec.newAlign1 : UVec T β).Represents G c [] := UVec.newAlign1_holds h1
  have e : ∀ {q : Reservation} {v' : UVec T β}, q.align = 1 → (UVec.impl G c T).Served (UVec.newAlignPtr c) v' [] q.slots q.bytes q.align →
      v'.align = c.usizeAlign := by
    intro q v' hq h
    rcases h.alignCases with h | h
    · rw [hq] at h
      exact h.trans (Nat.max_eq_left hu.pos)
    · exact h
  refine ⟨(run_unaligned h0' hv he (.exactCapBytesAlign n b al) hal).mono (fun _ v' h => ⟨h.holds, h.drops, h.roomy, fun hb => ?_⟩)
      (fun _ h => h.1.holds) (fun h => ⟨_, _, h⟩),
    (run_unaligned h0 hv he (.exactCapBytes n b) h1).mono (fun _ _ h => ⟨h.holds, h.drops, h.roomy, e rfl h⟩) (fun _ h => h.1.holds)
      (fun h => ⟨_, _, h⟩),
    (run_unaligned h0 hv he (.exact n) h1).mono (fun _ _ h => ⟨h.holds, h.drops, h.roomy, e rfl h⟩) (fun _ h => h.1.holds)
      (fun h => ⟨_, _, h⟩)⟩
  have h2 : al ≤ v'.align := h.fits (fun _ h => absurd h hb)
  rcases h.alignCases with h3 | h3
  · exact h3.trans (Nat.max_eq_right hal.pos)
  · have h4 : v'.align = 1 := h3
    have := hal.pos
    omega

/-! ## C13 -/

/-- C13, statically aligned elements: when a `try_reserve…` method fails, the contents, the byte length and capacity are as
before and the vector still satisfies its invariant. -/
theorem C13_try_aligned (hA : A.Fits c) {v : AVec A β} {xs : List (Val A.ty β)} (h : v.Holds c xs)
    {env : Env (Val A.ty β)} (hv : env.Valid) (q : Reservation) (hal : IsAlign c q.align) :
    (q.attempt c (alignedP c A) env v).Meets
      (fun r v' => ∀ e, r = .error e → v'.Holds c xs ∧ v'.drops = v.drops ∧ SameBytes (alignedP c A) v v' ∧
        (v'.ptr, v'.heap.block) = (v.ptr, v.heap.block))
      (fun v' => v'.Holds c xs ∧ v'.drops = v.drops ∧ SameBytes (alignedP c A) v v') False := by
  refine (attempt_aligned hA h hv q hal).mono ?_
    (fun _ h' => ⟨h'.2.1.holds, h'.2.1.drops, h'.2.1.same (AVec.implF hA) h⟩) id
  rintro r v' (⟨rfl, _⟩ | ⟨e, rfl, h1, _⟩) e' h0
  · cases h0
  · exact ⟨h1.holds, h1.drops, h1.same (AVec.implF hA) h, h1.block⟩

/-- C13, dynamically aligned elements. -/
theorem C13_try_unaligned {G : Prop} {v : UVec T β} {xs : List (Val T β)} (h : v.Represents G c xs)
    {env : Env (Val T β)} (hv : env.Valid) (he : G → env.Exact) (q : Reservation) (hal : IsAlign c q.align) :
    (q.attempt c (unalignedP c T) env v).Meets
      (fun r v' => ∀ e, r = .error e → v'.Represents G c xs ∧ v'.drops = v.drops ∧ SameBytes (unalignedP c T) v v' ∧
        (v'.ptr, v'.heap.block) = (v.ptr, v.heap.block))
      (fun v' => v'.Represents G c xs ∧ v'.drops = v.drops ∧ SameBytes (unalignedP c T) v v') False := by
  refine (attempt_unaligned h hv he q hal).mono ?_
    (fun _ h' => ⟨h'.2.1.holds, h'.2.1.drops, h'.2.1.same (UVec.impl G c T) h⟩) id
  rintro r v' (⟨rfl, _⟩ | ⟨e, rfl, h1, _⟩) e' h0
  · cases h0
  · exact ⟨h1.holds, h1.drops, h1.same (UVec.impl G c T) h, h1.block⟩

/-! ## C14 -/

/-- C14, statically aligned elements: without debug assertions (or for the methods that contain none) the result is always a
`Result`, and it is an error if the bytes do not fit into `isize::MAX`. -/
theorem C14_try_aligned_partial (hA : A.Fits c) {v : AVec A β} {xs : List (Val A.ty β)} (h : v.Holds c xs)
    {env : Env (Val A.ty β)} (hv : env.Valid) (q : Reservation) (hal : IsAlign c q.align)
    (hd : c.debug = false ∨ ¬ q.Asserts) :
    ∃ r v', q.attempt c (alignedP c A) env v = .ok r v' ∧
      (c.isizeMax < totalWidth id xs + q.bytes → ∃ e, r = .error e) := by
  have key := attempt_aligned hA h hv q hal
  cases hm : q.attempt c (alignedP c A) env v with
  | ub => rw [hm] at key; exact key.elim
  | abort => rw [hm] at key; exact key.elim
  | panic v' =>
    rw [hm] at key
    rcases hd with hd | hd
    · rw [key.1.1] at hd; cases hd
    · exact absurd key.1.2 hd
  | ok r v' =>
    rw [hm] at key
    refine ⟨r, v', rfl, fun hb => ?_⟩
    rcases key with ⟨rfl, h1⟩ | ⟨e, rfl, _⟩
    · have h2 : totalWidth id xs + q.bytes ≤ v'.byteCap := h1.room
      have h3 := (show v'.Holds c xs from h1.holds).capMax
      have : VS.max c A.ALIGN ≤ c.isizeMax := Nat.sub_le _ _
      omega
    · exact ⟨e, rfl⟩

/-- C14, dynamically aligned elements. -/
theorem C14_try_unaligned_partial {G : Prop} {v : UVec T β} {xs : List (Val T β)} (h : v.Represents G c xs)
    {env : Env (Val T β)} (hv : env.Valid) (he : G → env.Exact) (q : Reservation) (hal : IsAlign c q.align)
    (hd : c.debug = false ∨ ¬ q.Asserts) :
    ∃ r v', q.attempt c (unalignedP c T) env v = .ok r v' ∧
      (c.isizeMax < totalWidth id xs + q.bytes → ∃ e, r = .error e) := by
  have key := attempt_unaligned h hv he q hal
  cases hm : q.attempt c (unalignedP c T) env v with
  | ub => rw [hm] at key; exact key.elim
  | abort => rw [hm] at key; exact key.elim
  | panic v' =>
    rw [hm] at key
    rcases hd with hd | hd
    · rw [key.1.1] at hd; cases hd
    · exact absurd key.1.2 hd
  | ok r v' =>
    rw [hm] at key
    refine ⟨r, v', rfl, fun hb => ?_⟩
    rcases key with ⟨rfl, h1⟩ | ⟨e, rfl, _⟩
    · have h2 : totalWidth (padTo v'.align) xs + q.bytes ≤ v'.byteCap := h1.room
      have h4 : v'.Represents G c xs := h1.holds
      have h3 := h4.capMax
      have h5 : totalWidth id xs ≤ totalWidth (padTo v'.align) xs := totalWidth_mono (fun n => le_padTo h4.al.pos n) xs
      omega
    · exact ⟨e, rfl⟩

/-- A method that contains the debug assertion unwinds only in a debug build, only when the reservation fails, and leaves the
vector as it was. -/
theorem C14_debug_unaligned {G : Prop} {v : UVec T β} {xs : List (Val T β)} (h : v.Represents G c xs)
    {env : Env (Val T β)} (hv : env.Valid) (he : G → env.Exact) (q : Reservation) (hal : IsAlign c q.align) :
    (q.attempt c (unalignedP c T) env v).Meets (fun _ _ => True)
      (fun v' => c.debug = true ∧ q.Asserts ∧ v'.Represents G c xs ∧ v'.drops = v.drops) False :=
  (attempt_unaligned h hv he q hal).mono (fun _ _ _ => trivial)
    (fun _ h => ⟨h.1.1, h.1.2, h.2.1.holds, h.2.1.drops⟩) id

/-- The same for statically aligned elements. -/
theorem C14_debug_aligned (hA : A.Fits c) {v : AVec A β} {xs : List (Val A.ty β)} (h : v.Holds c xs)
    {env : Env (Val A.ty β)} (hv : env.Valid) (q : Reservation) (hal : IsAlign c q.align) :
    (q.attempt c (alignedP c A) env v).Meets (fun _ _ => True)
      (fun v' => c.debug = true ∧ q.Asserts ∧ v'.Holds c xs ∧ v'.drops = v.drops) False :=
  (attempt_aligned hA h hv q hal).mono (fun _ _ _ => trivial)
    (fun _ h => ⟨h.1.1, h.1.2, h.2.1.holds, h.2.1.drops⟩) id

/-! ## C17 -/

/-- C17, dynamically aligned elements, no bytes asked for: `reserve_exact(n)` with `n` slots to spare does nothing at all. -/
theorem C17_reserve_exact_unaligned_partial {G : Prop} {v : UVec T β} {xs : List (Val T β)} (h : v.Represents G c xs) (env : Env (Val T β)) {n : Nat}
    (hn : xs.length + n ≤ v.elemsCap) : Api.reserveExact (unalignedP c T) env n v = .ok () v := by
  unfold Api.reserveExact Api.tryReserveExactCapacityBytes Api.tryReserveExactCapacityBytesAlign
  rcases (UVec.impl G c T).tryReserve h env n with ⟨v1, h4, _, _, _, _, _, _, _, _, hid, _, _, _⟩ | ⟨e, _, _, h5⟩
  · rw [hid hn] at h4
    rw [Exec.bind_assoc_apply, Exec.bind_ok h4]
    dsimp only
    unfold Api.toAlign
    rw [(UVec.impl G c T).alignNew (isAlign_one_of h.al)]
    dsimp only
    rw [Exec.bind_assoc_apply, Exec.pure_bind_apply,
      Exec.bind_ok ((UVec.impl G c T).noAdd h env (isAlign_one_of h.al) h.al.pos)]
    rfl
  · exact absurd (show v.elemsCap < xs.length + n from h5) (by omega)

/-- C17, statically aligned elements, no bytes asked for. -/
theorem C17_reserve_exact_aligned_partial (hA : A.Fits c) {v : AVec A β} {xs : List (Val A.ty β)} (h : v.Holds c xs)
    (env : Env (Val A.ty β)) {n : Nat} (hn : xs.length + n ≤ v.elemsCap) :
    Api.reserveExact (alignedP c A) env n v = .ok () v := by
  unfold Api.reserveExact Api.tryReserveExactCapacityBytes Api.tryReserveExactCapacityBytesAlign
  rcases (AVec.implF hA).tryReserve h env n with ⟨v1, h4, _, _, _, _, _, _, _, _, hid, _, _, _⟩ | ⟨e, _, _, h5⟩
  · rw [hid hn] at h4
    rw [Exec.bind_assoc_apply, Exec.bind_ok h4]
    dsimp only
    unfold Api.toAlign
    rw [(AVec.implF hA).alignNew (isAlign_one_of hA.al)]
    dsimp only
    rw [Exec.bind_assoc_apply, Exec.pure_bind_apply,
      Exec.bind_ok ((AVec.implF hA).noAdd h env (isAlign_one_of hA.al) trivial)]
    rfl
  · exact absurd (show v.elemsCap < xs.length + n from h5) (by omega)

/-- C17 holds for the amortised methods: `reserve_capacity_bytes_align(n, b, al)` with room to spare does nothing at all. -/
theorem C17_reserve_unaligned {G : Prop} {v : UVec T β} {xs : List (Val T β)} (h : v.Represents G c xs) (env : Env (Val T β)) {n b al : Nat}
    (hal : IsAlign c al) (hn : xs.length + n ≤ v.elemsCap) (hb : totalWidth (padTo v.align) xs + b ≤ v.byteCap)
    (ha : al ≤ v.align) : Api.reserveCapacityBytesAlign c (unalignedP c T) env n b al v = .ok () v :=
  (UVec.impl G c T).reserveCapacityBytesAlign_idle h env n b hal hn hb ha

/-- The same for statically aligned elements. -/
theorem C17_reserve_aligned (hA : A.Fits c) {v : AVec A β} {xs : List (Val A.ty β)} (h : v.Holds c xs)
    (env : Env (Val A.ty β)) {n b al : Nat} (hal : IsAlign c al) (hn : xs.length + n ≤ v.elemsCap)
    (hb : totalWidth id xs + b ≤ v.byteCap) : Api.reserveCapacityBytesAlign c (alignedP c A) env n b al v = .ok () v :=
  (AVec.implF hA).reserveCapacityBytesAlign_idle h env n b hal hn hb trivial

/-! ## Examples and counterexamples -/

section
open Sample

/-- The hypotheses can be met; the reservation makes the capacity 24 + 16 = 40 bytes, alignment 16. -/
example : vecU.Holds c64 listU ∧ (env : Env (Val Dyn Nat)).Valid ∧ (env : Env (Val Dyn Nat)).Exact ∧
    IsAlign c64 (Reservation.exactCapBytesAlign 3 10 16).align :=
  ⟨vecU_holds _ (.inl rfl), env_valid, env_exact, 4, by decide, rfl⟩

/-- What the user can query after a computation. -/
def sizes {V T β α} (P : Provider V T β) : Res V α → Option (Nat × Option Nat × Option Nat × Nat)
  | .ok _ v => some (P.capacity v, P.byteLen v, P.byteCapacity v, P.align v)
  | _ => none

example : sizes (unalignedP (β := Nat) c64 Dyn) (Reservation.attempt c64 (unalignedP c64 Dyn) env (.exactCapBytesAlign 3 10 16) vecU) =
    some (5, some 32, some 64, 16) := by decide

/-- C12 fails for an alignment request without bytes on a vector without memory: the call succeeds but the alignment stays. -/
theorem C12_counterexample :
    sizes (unalignedP (β := Nat) c64 Dyn) (Reservation.run c64 (unalignedP c64 Dyn) env (.capBytesAlign 0 0 16) (UVec.newAlignPtr c64)) =
      some (0, some 0, some 0, 8) ∧ IsAlign c64 16 := ⟨by decide, 4, by decide, rfl⟩

/-- `with_capacity_bytes_align(0, 0, 16)` has alignment 1. -/
theorem C12_counterexample_with_capacity :
    sizes (unalignedP (β := Nat) c64 Dyn) (Api.withCapacityBytesAlign (unalignedP c64 Dyn) env 0 0 16) =
      some (0, some 0, some 0, 1) := by decide

/-- Did the computation unwind? -/
def unwinds {V α} : Res V α → Bool
  | .panic _ => true
  | _ => false

/-- C14 fails in debug builds: a request of `2 ^ 63` bytes, which cannot be satisfied, panics instead of returning `Err`. -/
theorem C14_counterexample :
    unwinds (Reservation.attempt c64d (unalignedP c64d Dyn) env (.capBytes 0 (2 ^ 63)) vecU) = true ∧
    unwinds (Reservation.attempt c64d (alignedP c64d Bytes) env (.capBytes 0 (2 ^ 63)) vecA) = true ∧
    vecU.Holds c64d listU ∧ vecA.Holds c64d listA :=
  ⟨by decide, rfl, vecU_holds _ (.inr rfl), vecA_holds _ (.inr rfl)⟩

/-- The same request in a release build gives `Err`. -/
example : ∃ e, (Reservation.attempt c64 (unalignedP c64 Dyn) env (.capBytes 0 (2 ^ 63)) vecU) = .ok (.error e) vecU :=
  ⟨.capacityOverflow, rfl⟩

/-- C17 fails: `vecU` has 24 - 16 = 8 bytes to spare, yet `reserve_exact_capacity_bytes(1, 8)` reallocates to 32 bytes. -/
theorem C17_counterexample :
    sizes (unalignedP c64 Dyn) (.ok () vecU) = some (4, some 16, some 24, 8) ∧
    sizes (unalignedP c64 Dyn) (Api.reserveExactCapacityBytes (unalignedP c64 Dyn) env 1 8 vecU) =
      some (4, some 16, some 32, 8) ∧ vecU.Holds c64 listU := ⟨by decide, by decide, vecU_holds _ (.inl rfl)⟩

/-- The same for statically aligned elements: 4 bytes to spare, 4 asked for. -/
theorem C17_counterexample_aligned :
    sizes (alignedP c64 Bytes) (.ok () vecA) = some (4, some 6, some 10, 1) ∧
    sizes (alignedP c64 Bytes) (Api.reserveExactCapacityBytes (alignedP c64 Bytes) env 1 4 vecA) =
      some (4, some 6, some 14, 1) ∧ vecA.Holds c64 listA := ⟨rfl, rfl, vecA_holds _ (.inl rfl)⟩

end
end Verif
