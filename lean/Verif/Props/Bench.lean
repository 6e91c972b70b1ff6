import Verif.Proofs.Bench
import Verif.Props.Stress

/-!
# C73: benches/bench.rs

The two benchmarks of the crate's own vectors. They do what they are meant to measure: every array arrives, is destroyed once, and all
memory is given back; without preallocation the cost is linear in the number of arrays; with preallocation the allocator is not called
in the loop.
-/

namespace Verif
open Stress Bench

section
variable {β : Type} [Inhabited β] {c : Cfg}

/-- C73, `test_push_arrays`, for any number of turns and any allocator: when it returns, all arrays have been destroyed, each once and in
order. When a push panics (`n` arrays having been stored), the array that was to be pushed is destroyed first, and then those stored.
In both cases all memory is given back. It aborts only if the allocator refuses. -/
theorem C73_push_arrays (hal : IsAlign c 4) (hm : 55 ≤ c.isizeMax) {arr : Nat → List β}
    (ha : ∀ k ∈ [0, 1, 2, 3, 4, 13], (arr k).length = k * 4) {env : Nat → Env (Val I32s.ty β)} (hv : ∀ i, (env i).Valid)
    (hd : ∀ i x, (env i).dropPanics x = false) {envD : Env (Val I32s.ty β)} (hD : ∀ x, envD.dropPanics x = false) (r : Nat) :
    (pushArrays c env envD arr r).Meets
      (fun _ v => v.drops = elements arr r ∧ v.heap.block = none ∧ v.heap.leaks = 0)
      (fun v => (∃ n x, (elements arr r)[n]? = some x ∧ v.drops = x :: (elements arr r).take n) ∧
        v.heap.block = none ∧ v.heap.leaks = 0)
      (∃ i < r, ∃ n l, (env i).Refuses n l) :=
  finish_meets hal (fun _ hk => element_wf hal hm ha hk) hv hd hD (AVec.new_holds (C28_slice_fits hal)) rfl r

/-- C73, `test_push_arrays`: with an allocator that is exact and grants everything, and that gives the vector of the records the room
asked for or a little more, the loop returns, and it moves at most 294 bytes and records per turn, however many turns there are. -/
theorem C73_cost (hal : IsAlign c 4) (hm : 55 ≤ c.isizeMax) {arr : Nat → List β}
    (ha : ∀ k ∈ [0, 1, 2, 3, 4, 13], (arr k).length = k * 4) {env : Env (Val I32s.ty β)} (hv : env.Valid) (he : env.Exact)
    (hg : ∀ l, env.alloc l ≠ none) (hi : ∀ n, ∃ k, env.infoGrow n = .ok k ∧ n - 2 ≤ k ∧ k ≤ n + 4) {r : Nat}
    (hlen : 12 * r ≤ c.infoMax) (hsize : 184 * r + 3 ≤ c.isizeMax) :
    ∃ v n, Bench.turns c (alignedMetered c I32s) (fun _ => env) arr r (AVec.new, 0) = .ok () (v, n) ∧ v.Holds c (elements arr r) ∧
      n ≤ 294 * r + 4 := by
  have hw : ∀ k ∈ lengths, (array arr k).WF c := fun _ hk => element_wf hal hm ha hk
  obtain ⟨v, n, h1, h2, h3⟩ := C68_pushes_aligned (C28_slice_lawful hal (by decide)) hv he hg hi (xs := elements arr r) (elements_wf hw r)
    (by rw [elements_length]; omega) (by rw [elements_width]; show 2 * (92 * r) ≤ c.isizeMax - (4 - 1); omega)
  rw [elements_length, elements_width] at h3
  exact ⟨v, n, turns_of_all _ hw h1, h2, by omega⟩

/-- C73, `test_push_arrays`: with such an allocator the benchmark returns. -/
theorem C73_push_arrays_returns (hal : IsAlign c 4) (hm : 55 ≤ c.isizeMax) {arr : Nat → List β}
    (ha : ∀ k ∈ [0, 1, 2, 3, 4, 13], (arr k).length = k * 4) {env : Env (Val I32s.ty β)} (hv : env.Valid) (he : env.Exact)
    (hg : ∀ l, env.alloc l ≠ none) (hi : ∀ n, ∃ k, env.infoGrow n = .ok k ∧ n - 2 ≤ k ∧ k ≤ n + 4) (hd : ∀ x, env.dropPanics x = false)
    {envD : Env (Val I32s.ty β)} (hD : ∀ x, envD.dropPanics x = false) {r : Nat}
    (hlen : 12 * r ≤ c.infoMax) (hsize : 184 * r + 3 ≤ c.isizeMax) :
    ∃ v, pushArrays c (fun _ => env) envD arr r = .ok () v ∧ v.drops = elements arr r ∧ v.heap.block = none ∧ v.heap.leaks = 0 := by
  have hw : ∀ k ∈ lengths, (array arr k).WF c := fun _ hk => element_wf hal hm ha hk
  obtain ⟨v, n, h1, h2, h3⟩ := C68_pushes_aligned (C28_slice_lawful hal (by decide)) hv he hg hi (xs := elements arr r) (elements_wf hw r)
    (by rw [elements_length]; omega) (by rw [elements_width]; show 2 * (92 * r) ≤ c.isizeMax - (4 - 1); omega)
  have h4 := C68_same_aligned (c := c) (A := I32s) ((elements arr r).map fun x => (env, .push x)) AVec.new 0
  rw [h1] at h4
  have key := C73_push_arrays hal hm ha (fun _ => hv) (fun _ => hd) hD r
  have h5 : Bench.turns c (alignedM c I32s) (fun _ => env) arr r AVec.new = .ok () v := turns_of_all _ hw h4.symm
  have h7 : pushArrays c (fun _ => env) envD arr r = AVec.drop c envD v := by
    unfold pushArrays finish
    refine Exec.bind_ok (a := ()) ?_
    unfold Exec.onUnwind
    rw [show Api.new (alignedP c I32s) = (AVec.new : AVec I32s β) from rfl, h5]
  obtain ⟨v2, m1, _⟩ := C21_drop_aligned_returns (C28_slice_fits hal) h2 (env := envD) (fun x _ => hD x)
  rw [h7, m1] at key
  exact ⟨v2, h7.trans m1, key⟩

/-- C73, `test_push_arrays_preallocated`: up to 256 turns (the source has 255) return whatever the allocator would say in the loop — it
is not called there; all arrays are destroyed and all memory is given back, unless the memory that `with_capacity_bytes` asks for is
refused. The allocator need not be exact. -/
theorem C73_preallocated (hal : IsAlign c 4) {arr : Nat → List β} (ha : ∀ k ∈ [0, 1, 2, 3, 4, 13], (arr k).length = k * 4)
    (hm : 23552 + 3 ≤ c.isizeMax) (hn : 1536 ≤ c.infoMax) {env0 : Env (Val I32s.ty β)} (hv : env0.Valid)
    (env : Nat → Env (Val I32s.ty β)) {envD : Env (Val I32s.ty β)} (hd : ∀ x, envD.dropPanics x = false) {r : Nat} (hr : r ≤ 256) :
    (preallocated c env0 env envD arr r).Meets
      (fun _ v => v.drops = elements arr r ∧ v.heap.block = none ∧ v.heap.leaks = 0)
      (fun _ => env0.Refuses 1536 ⟨23552, 4⟩) (env0.Refuses 1536 ⟨23552, 4⟩) := by
  have hb : bytes = 23552 := rfl
  have hs : slots = 1536 := rfl
  have hA : I32s.Fits c := C28_slice_fits hal
  have h0 : (AVec.new : AVec I32s β).Holds c [] := AVec.new_holds hA
  have h1 := isAlign_one_of hal
  have key := run_aligned hA h0 hv (.exactCapBytes slots bytes) h1
  unfold preallocated
  change Res.Meets (Api.withCapacityBytes (alignedP c I32s) env0 slots bytes) _ _ _ at key
  have ex := C12_with_capacity_aligned (β := β) hA hv slots bytes h1
  cases hw : Api.withCapacityBytes (alignedP c I32s) env0 slots bytes with
  | ub => rw [hw] at key; exact key.elim
  | abort =>
    rw [hw] at key
    have key : env0.Refuses (0 + slots) ⟨0 + bytes, 4⟩ := key
    rw [Nat.zero_add, Nat.zero_add] at key
    exact key
  | panic v =>
    rw [hw] at key
    rcases key.2 with h2 | h2 | h2
    · have h2 : env0.Refuses (0 + slots) ⟨0 + bytes, 4⟩ := h2
      rw [Nat.zero_add, Nat.zero_add] at h2
      exact h2
    · have h2 : c.infoMax < 0 + slots := h2
      omega
    · have h2 : c.isizeMax - (4 - 1) < 0 + bytes := h2
      omega
  | ok u v =>
    rw [hw] at key
    have ex := ex.2.1
    rw [hw] at ex
    have g4 : v.drops = [] := key.drops
    obtain ⟨e1, len, cap, _, e2, e3⟩ := ex.2.2
    have e1 : v.len + slots ≤ v.elemsCap := e1
    have e2 : v.byteCap = cap := Option.some.inj e2
    obtain ⟨v1, k1, k2, k3, k4, k5⟩ := turns_idle hal (fun k hk => ⟨ha k hk, by have := lengths_bound hk; omega⟩) env ex.1 (r := r)
      (by omega) (by omega)
    dsimp only
    have hb : Exec.onUnwind (Bench.turns c (alignedM c I32s) env arr r) ((alignedM c I32s).drop envD) v = .ok () v1 := by
      unfold Exec.onUnwind
      rw [turns_eq, k1]
    unfold finish
    rw [Exec.bind_ok hb]
    obtain ⟨v2, m1, m2, m3, m4⟩ := C21_drop_aligned_returns hA k2 (env := envD) (fun x _ => hd x)
    have m1 : (alignedM c I32s).drop envD v1 = .ok () v2 := m1
    rw [m1]
    exact ⟨by rw [m2, k3, g4, List.nil_append], m3, m4⟩

end

/-! ## Examples -/

section
open Sample

theorem small_fit : 55 ≤ c64.isizeMax := by decide

/-- What is left of a run: the sizes of the arrays destroyed, whether there is a block, and the number of leaked blocks. -/
def leftovers : Res (AVec I32s Nat) Unit → Option (Bool × List Nat × Bool × Nat)
  | .ok _ v => some (true, v.drops.map (·.size), v.heap.block.isSome, v.heap.leaks)
  | .panic v => some (false, v.drops.map (·.size), v.heap.block.isSome, v.heap.leaks)
  | _ => none

/-- One turn, without and with preallocation; in the second case the allocator refuses everything in the loop. -/
example : leftovers (pushArrays c64 (fun _ => envDoubles) env zeros 1) = some (true, [0, 4, 8, 12, 16, 52], false, 0) := by
  decide +kernel

example : leftovers (preallocated c64 env (fun _ => envFull) env zeros 1) = some (true, [0, 4, 8, 12, 16, 52], false, 0) := by
  decide +kernel

/-- An address space of 128 bytes: the last array finds no room. It is destroyed first. -/
example : leftovers (pushArrays ⟨7, false, 8, 2 ^ 59⟩ (fun _ => envDoubles) env zeros 1) = some (false, [52, 0, 4, 8, 12, 16], false, 0) := by
  decide +kernel

/-- One turn costs 190. -/
example : (Bench.turns c64 (alignedMetered c64 I32s) (fun _ => envDoubles) zeros 1 (AVec.new, 0)).meter = some 190 := by decide +kernel

attribute [local irreducible] pushArrays preallocated elements Bench.turns

/-- The hypotheses can be met, with the number of turns that the source has. -/
example : True := by
  have := C73_push_arrays four_align small_fit (fun k _ => zeros_length k) (fun _ => env_valid) (fun _ _ => rfl) (envD := env)
    (fun _ => rfl) 255
  have := C73_preallocated four_align (fun k _ => zeros_length k) bytes_fit slots_fit env_valid (fun _ => envFull) (envD := env)
    (fun _ => rfl) (r := 255) (by decide)
  trivial

example : ∃ v n, Bench.turns c64 (alignedMetered c64 I32s) (fun _ => envDoubles) zeros 255 (AVec.new, 0) = .ok () (v, n) ∧
    v.Holds c64 (elements zeros 255) ∧ n ≤ 74974 :=
  C73_cost (env := envDoubles) (r := 255) four_align small_fit (fun k _ => zeros_length k) (env_valid (X := Val I32s.ty Nat)) (env_exact (X := Val I32s.ty Nat))
    (fun _ => (by intro h; cases h)) (fun n => ⟨_, rfl, by omega, by omega⟩) (by decide) (by decide)

example : ∃ v, pushArrays c64 (fun _ => envDoubles) env zeros 255 = .ok () v ∧ v.drops = elements zeros 255 ∧ v.heap.block = none ∧
    v.heap.leaks = 0 :=
  C73_push_arrays_returns (env := envDoubles) (envD := env) (r := 255) four_align small_fit (fun k _ => zeros_length k) (env_valid (X := Val I32s.ty Nat))
    (env_exact (X := Val I32s.ty Nat)) (fun _ => (by intro h; cases h)) (fun n => ⟨_, rfl, by omega, by omega⟩) (fun _ => rfl)
    (fun _ => rfl) (by decide) (by decide)

end
end Verif
