import Verif.Proofs.Stress
import Verif.Props.Stored

/-!
# C65: exact capacities, and src/bin/stress.rs

The constructors with a capacity give the byte capacity asked for and not more, if the allocator grants what it is asked for and not
more (as `Global` does). src/bin/stress.rs relies on it: it asserts that the byte capacity is exactly the one asked for, after so
many pushes that the storage is nearly full.
-/

namespace Verif

section
variable {T : UTy} {A : ATy} {β : Type} [Inhabited β] {c : Cfg}

/-- C65, statically aligned elements: the exact reservations enlarge the byte capacity by what is asked for, exactly. -/
theorem C65_reserve_exact_aligned (hA : A.Fits c) {v v' : AVec A β} {xs : List (Val A.ty β)} (h : v.Holds c xs)
    {env : Env (Val A.ty β)} (hv : env.Valid) (he : env.Exact) {n b al : Nat} (hal : IsAlign c al)
    (hr : Api.reserveExactCapacityBytesAlign (alignedP c A) env n b al v = .ok () v') :
    v'.Holds c xs ∧ v'.drops = v.drops ∧ xs.length + n ≤ v'.elemsCap ∧ v'.byteCap = v.byteCap + b := by
  have h0 := unwrapped hr
  obtain ⟨h1, h2, h3, h4, _⟩ := (AVec.implF hA).exact_bytes h hv he n b hal h0
  have h5 := (C17_exact_aligned_grows hA h hv n b hal h0).2
  have h4 : v'.byteCap = v.byteCap ∨ v'.byteCap = v.byteCap + b := h4
  exact ⟨h1, h2, h3, by omega⟩

/-- C65, statically aligned elements: `with_capacity_bytes`, `with_capacity_bytes_align` and `with_capacity` give the byte capacity asked
for, exactly. -/
theorem C65_with_capacity_aligned (hA : A.Fits c) {env : Env (Val A.ty β)} (hv : env.Valid) (he : env.Exact) {n b al : Nat}
    (hal : IsAlign c al) {v : AVec A β} :
    (Api.withCapacityBytesAlign (alignedP c A) env n b al = .ok () v →
      v.Holds c [] ∧ n ≤ v.elemsCap ∧ (alignedP c A).byteCapacity v = some b) ∧
    (Api.withCapacityBytes (alignedP c A) env n b = .ok () v →
      v.Holds c [] ∧ n ≤ v.elemsCap ∧ (alignedP c A).byteCapacity v = some b) ∧
    (Api.withCapacity (alignedP c A) env n = .ok () v →
      v.Holds c [] ∧ n ≤ v.elemsCap ∧ (alignedP c A).byteCapacity v = some 0) := by
  have h0 : (AVec.new : AVec A β).Holds c [] := AVec.new_holds hA
  have key : ∀ {b al : Nat}, IsAlign c al →
      Api.reserveExactCapacityBytesAlign (alignedP c A) env n b al AVec.new = .ok () v →
      v.Holds c [] ∧ n ≤ v.elemsCap ∧ (alignedP c A).byteCapacity v = some b := by
    intro b al hal hr
    obtain ⟨h1, _, h3, h4⟩ := C65_reserve_exact_aligned hA h0 hv he hal hr
    refine ⟨h1, by rw [List.length_nil] at h3; omega, ?_⟩
    show some v.byteCap = _
    rw [h4, show (AVec.new : AVec A β).byteCap = 0 from rfl, Nat.zero_add]
  exact ⟨key hal, key (isAlign_one_of hal), key (isAlign_one_of hal)⟩

/-- C65, dynamically aligned elements. Partial: the byte capacity is what is asked for, rounded up to a multiple of the alignment
(`C65_counterexample`); that is the one asked for, or that of `usize` if none is. -/
theorem C65_with_capacity_unaligned_partial (hu : IsAlign c c.usizeAlign) {env : Env (Val T β)} (hv : env.Valid) (he : env.Exact)
    {n b al : Nat} (hal : IsAlign c al) {v : UVec T β} :
    (Api.withCapacityBytesAlign (unalignedP c T) env n b al = .ok () v →
      v.Holds c [] ∧ n ≤ v.elemsCap ∧ (unalignedP c T).byteCapacity v = some (padTo al b)) ∧
    (Api.withCapacityBytes (unalignedP c T) env n b = .ok () v →
      v.Holds c [] ∧ n ≤ v.elemsCap ∧ (unalignedP c T).byteCapacity v = some (padTo c.usizeAlign b)) ∧
    (Api.withCapacity (unalignedP c T) env n = .ok () v →
      v.Holds c [] ∧ n ≤ v.elemsCap ∧ (unalignedP c T).byteCapacity v = some 0) := by
  have key : ∀ {b al : Nat} {v0 : UVec T β}, v0.Holds c [] → v0.byteCap = 0 → IsAlign c al →
      Api.reserveExactCapacityBytesAlign (unalignedP c T) env n b al v0 = .ok () v →
      v.Holds c [] ∧ n ≤ v.elemsCap ∧ (unalignedP c T).byteCapacity v = some (padTo (max v0.align al) b) := by
    intro b al v0 h0 hz hal hr
    have h0' := unwrapped hr
    obtain ⟨h1, h2, h3, h4, _⟩ := (UVec.impl True c T).exact_bytes h0 ⟨hv, fun _ => he⟩ he n b hal h0'
    have h5 := (C17_exact_unaligned_grows h0 hv he n b hal h0').2
    have h3 : ([] : List (Val T β)).length + n ≤ v.elemsCap := h3
    rw [List.length_nil, Nat.zero_add] at h3
    have h4 : v.byteCap = v0.byteCap ∨ v.byteCap = (v0.request [] b al).size := h4
    refine ⟨h1, h3, congrArg some ?_⟩
    rcases h4 with h4 | h4
    · have hb : b = 0 := by omega
      rw [h4, hz, hb, padTo_zero]
    · rw [h4]
      show padTo _ (padTo _ (v0.byteCap + (0 - 0)) + b) = _
      rw [hz, padTo_zero, Nat.zero_add]
  have h1 := isAlign_one_of hal
  refine ⟨fun hr => ?_, fun hr => ?_, fun hr => ?_⟩
  · have := key (UVec.newAlign1_holds h1) rfl hal hr
    rwa [show max (UVec.newAlign1 : UVec T β).align al = al from Nat.max_eq_right hal.pos] at this
  · have := key (UVec.newAlignPtr_holds hu) rfl h1 hr
    rwa [show max (UVec.newAlignPtr c : UVec T β).align 1 = c.usizeAlign from Nat.max_eq_left hu.pos] at this
  · have := key (UVec.newAlignPtr_holds hu) rfl h1 hr
    rwa [padTo_zero] at this

end

/-! ## src/bin/stress.rs -/

section
open Stress
variable {β : Type} [Inhabited β] {c : Cfg}

/-- C65, src/bin/stress.rs: if the allocator is exact, then with up to 256 turns of the inner loop (the source has 255) the assertion
holds; the program ends, having destroyed all elements once and given back all memory, unless the memory that `with_capacity_bytes` asks
for is refused. It depends neither on the contents of the arrays nor on what the allocator does while the arrays are pushed. The
address space must be large enough for 23552 bytes. -/
theorem C65_stress (hal : IsAlign c 4) {arr : Nat → List β} (ha : ∀ k ∈ [0, 1, 2, 3, 4, 13], (arr k).length = k * 4)
    (hm : 23552 + 3 ≤ c.isizeMax) (hn : 1536 ≤ c.infoMax) {env0 : Env (Val I32s.ty β)} (hv : env0.Valid) (he : env0.Exact)
    (env : Nat → Env (Val I32s.ty β)) {envD : Env (Val I32s.ty β)} (hd : ∀ x, envD.dropPanics x = false) {r : Nat} (hr : r ≤ 256) :
    (round c env0 env envD arr r).Meets
      (fun _ v => v.drops = elements arr r ∧ v.heap.block = none ∧ v.heap.leaks = 0)
      (fun _ => env0.Refuses 1536 ⟨23552, 4⟩) (env0.Refuses 1536 ⟨23552, 4⟩) := by
  have hb : bytes = 23552 := rfl
  have hs : slots = 1536 := rfl
  have hA : I32s.Fits c := C28_slice_fits hal
  have h0 : (AVec.new : AVec I32s β).Holds c [] := AVec.new_holds hA
  have h1 := isAlign_one_of hal
  have key := run_aligned hA h0 hv (.exactCapBytes slots bytes) h1
  have ex := (C65_with_capacity_aligned hA hv he (n := slots) (b := bytes) h1 (v := · )) 
  unfold round
  change Res.Meets (Api.withCapacityBytes (alignedP c I32s) env0 slots bytes) _ _ _ at key
  cases hw : Api.withCapacityBytes (alignedP c I32s) env0 slots bytes with
  | ub => rw [hw] at key; exact key.elim
  | abort =>
    rw [hw] at key
    have key : env0.Refuses (0 + slots) ⟨0 + bytes, 4⟩ := key
    rw [Nat.zero_add, Nat.zero_add] at key
    exact key
  | panic v =>
    rw [hw] at key
    rcases key.2 with h2 | h2 | h2
    · have h2 : env0.Refuses (0 + slots) ⟨0 + bytes, 4⟩ := h2
      rw [Nat.zero_add, Nat.zero_add] at h2
      exact h2
    · have h2 : c.infoMax < 0 + slots := h2
      omega
    · have h2 : c.isizeMax - (4 - 1) < 0 + bytes := h2
      omega
  | ok u v =>
    obtain ⟨g1, g2, g3⟩ := (ex v).2.1 hw
    have g3 : v.byteCap = bytes := Option.some.inj g3
    have g4 : v.drops = [] := by
      have := key
      rw [hw] at this
      exact this.drops
    dsimp only
    obtain ⟨v1, k1, k2, k3, k4, k5⟩ := turns_idle hal (fun k hk => ⟨ha k hk, by
        have : k ≤ 13 := by
          simp only [lengths, List.mem_cons, List.not_mem_nil, or_false] at hk
          omega
        omega⟩) env g1 (r := r) (by omega) (by omega)
    have hc : check c v1 = .ok () v1 := by
      unfold check
      rw [Exec.get_bind, Exec.orUb_bind (show (alignedP c I32s).byteCapacity v1 = some bytes from congrArg some (k5.trans g3))]
      exact if_pos rfl
    have hb : Exec.onUnwind (do turns c env arr r; check c) (AVec.drop c envD) v = .ok () v1 := by
      unfold Exec.onUnwind
      rw [Exec.bind_ok k1, hc]
    rw [Exec.bind_ok hb]
    obtain ⟨v2, m1, m2, m3, m4⟩ := C21_drop_aligned_returns hA k2 (env := envD) (fun x _ => hd x)
    rw [m1]
    exact ⟨by rw [m2, k3, g4, List.nil_append], m3, m4⟩

/-- The bound is sharp: with more than 256 turns the assertion never holds, whatever the allocators do. -/
theorem C65_stress_exceeded (hal : IsAlign c 4) {arr : Nat → List β} (ha : ∀ k ∈ [0, 1, 2, 3, 4, 13], (arr k).length = k * 4)
    (hm : 23552 + 3 ≤ c.isizeMax) {env0 : Env (Val I32s.ty β)} (hv0 : env0.Valid) {env : Nat → Env (Val I32s.ty β)}
    (hv : ∀ i, (env i).Valid) (envD : Env (Val I32s.ty β)) {r : Nat} (hr : 256 < r) :
    (round c env0 env envD arr r).Meets (fun _ _ => False) (fun _ => True) True := by
  have hb : bytes = 23552 := rfl
  have hA : I32s.Fits c := C28_slice_fits hal
  have h1 := isAlign_one_of hal
  have key := (C12_with_capacity_aligned (β := β) hA hv0 slots bytes h1).2.1
  unfold round
  cases hw : Api.withCapacityBytes (alignedP c I32s) env0 slots bytes with
  | ub => rw [hw] at key; exact key.elim
  | abort => exact trivial
  | panic v => exact trivial
  | ok u v =>
    rw [hw] at key
    dsimp only
    have h2 : (Exec.onUnwind (do turns c env arr r; check c) (AVec.drop c envD) v).Meets (fun _ _ => False) (fun _ => True) True := by
      have h3 := turns_meets hal (fun k hk => ⟨ha k hk, by
        have : k ≤ 13 := by
          simp only [lengths, List.mem_cons, List.not_mem_nil, or_false] at hk
          omega
        omega⟩) hv key.1 r
      have h4 : ((do turns c env arr r; check c) v).Meets (fun _ _ => False) (fun v' => ∃ ys, v'.Holds c ys) True := by
        refine h3.bind fun _ v1 h5 => ?_
        unfold check
        rw [Exec.get_bind, Exec.orUb_bind (show (alignedP c I32s).byteCapacity v1 = some v1.byteCap from rfl)]
        have h6 := h5.cap
        rw [elements_width] at h6
        rw [show Exec.assert (v1.byteCap = bytes) v1 = .panic v1 from if_neg (by omega)]
        exact ⟨_, h5⟩
      unfold Exec.onUnwind
      cases hx : (do turns c env arr r; check c : Exec (AVec I32s β) Unit) v with
      | ub => rw [hx] at h4; exact h4.elim
      | abort => exact trivial
      | ok _ _ => rw [hx] at h4; exact h4.elim
      | panic v1 =>
        rw [hx] at h4
        obtain ⟨ys, h5⟩ := h4
        have h6 := C21_drop_aligned hA h5 envD
        dsimp only
        cases hy : AVec.drop c envD v1 with
        | ok _ _ => exact trivial
        | panic _ => exact trivial
        | abort => exact trivial
        | ub => rw [hy] at h6; exact h6.elim
    exact h2.bind fun _ _ h => h.elim

end

/-! ## Examples and counterexamples -/

section
open Stress Sample

/-- Arrays of zeros. -/
def zeros (k : Nat) : List Nat := List.replicate (k * 4) 0

theorem four_align : IsAlign c64 4 := ⟨2, by decide, rfl⟩
theorem bytes_fit : 23552 + 3 ≤ c64.isizeMax := by decide
theorem slots_fit : 1536 ≤ c64.infoMax := by decide
theorem zeros_length (k : Nat) : (zeros k).length = k * 4 := List.length_replicate ..

/-- An allocator that grants four bytes more than it is asked for. -/
def envFour {X : Type} : Env X := { (env : Env X) with alloc := fun l => some (max 1 l.align, 4) }

/-- Without an exact allocator the assertion in stress.rs fails at once, although all calls have done what they promise. -/
theorem C65_counterexample_stress : ∃ v, round c64 envFour (fun _ => env) env zeros 0 = .panic v := ⟨_, rfl⟩

/-- The first three pushes, on an empty vector. -/
example : sizes (alignedP c64 I32s) (pushes c64 env zeros [0, 1, 2] AVec.new) = some (3, some 12, some 12, 4) := by decide +kernel

attribute [local irreducible] round elements

/-- The hypotheses can be met, on a 64-bit machine, with the number of turns that the source has. -/
example : True := by
  have := C65_stress four_align (fun k _ => zeros_length k) bytes_fit slots_fit env_valid env_exact (fun _ => env) (envD := env)
    (fun _ => rfl) (r := 255) (by decide)
  trivial

example : True := by
  have := C65_stress_exceeded four_align (fun k _ => zeros_length k) bytes_fit env_valid (fun _ => env_valid) env (r := 257) (by decide)
  trivial

/-- The constructors return: 12 bytes are asked for and given; for dynamically aligned elements 16 bytes. -/
example : sizes (alignedP (β := Nat) c64 I32s) (Api.withCapacityBytes (alignedP c64 I32s) env 3 12) = some (3, some 0, some 12, 4) ∧
    sizes (unalignedP (β := Nat) c64 Dyn) (Api.withCapacityBytesAlign (unalignedP c64 Dyn) env 3 16 4) = some (3, some 0, some 16, 4) := by
  decide

/-- C65 fails for dynamically aligned elements: `with_capacity_bytes_align(2, 10, 8)` gives 16 bytes. -/
theorem C65_counterexample :
    sizes (unalignedP (β := Nat) c64 Dyn) (Api.withCapacityBytesAlign (unalignedP c64 Dyn) env 2 10 8) = some (2, some 0, some 16, 8) := by
  decide

end
end Verif
