import Verif.Proofs.Drop
import Verif.Spec.Samples

/-!
# C21: dropping the vector

`v.drops` is the log of all destructor runs; `Heap.deallocate` is undefined behaviour unless the layout fits the live block,
so that a normal return with no live block and no leak means that the storage was freed exactly once, with its own layout.
-/

namespace Verif
open Sample

section
variable {T : UTy} {A : ATy} {β : Type} [Inhabited β] {c : Cfg}

/-- C21 for dynamically aligned elements. If `drop` returns, no destructor panicked, each element was destroyed once, in
order, and the storage is free. If it unwinds, the destructors of the elements up to and including the first panicking
one have been run, once each. No allocator outcome matters, and there is no undefined behaviour. -/
theorem C21_drop_unaligned {G : Prop} {v : UVec T β} {xs : List (Val T β)} (h : v.Represents G c xs) (env : Env (Val T β)) :
    (UVec.drop c env v).Meets
      (fun _ v' => (∀ x ∈ xs, env.dropPanics x = false) ∧ v'.drops = v.drops ++ xs ∧ v'.heap.block = none ∧ v'.heap.leaks = 0)
      (fun v' => ∃ ds, StopsAt env.dropPanics xs ds ∧ v'.drops = v.drops ++ ds) False :=
  UVec.drop_meets h env

/-- C21 for statically aligned elements. -/
theorem C21_drop_aligned (hA : A.Fits c) {v : AVec A β} {xs : List (Val A.ty β)} (h : v.Holds c xs) (env : Env (Val A.ty β)) :
    (AVec.drop c env v).Meets
      (fun _ v' => (∀ x ∈ xs, env.dropPanics x = false) ∧ v'.drops = v.drops ++ xs ∧ v'.heap.block = none ∧ v'.heap.leaks = 0)
      (fun v' => ∃ ds, StopsAt env.dropPanics xs ds ∧ v'.drops = v.drops ++ ds) False :=
  AVec.drop_meets hA h env

/-- When no destructor panics, `drop` returns. -/
theorem C21_drop_unaligned_returns {G : Prop} {v : UVec T β} {xs : List (Val T β)} (h : v.Represents G c xs) {env : Env (Val T β)}
    (hp : ∀ x ∈ xs, env.dropPanics x = false) :
    ∃ v', UVec.drop c env v = .ok () v' ∧ v'.drops = v.drops ++ xs ∧ v'.heap.block = none ∧ v'.heap.leaks = 0 := by
  have := C21_drop_unaligned h env
  cases hm : UVec.drop c env v with
  | ok u v' => rw [hm] at this; exact ⟨v', rfl, this.2⟩
  | panic v' =>
    rw [hm] at this
    obtain ⟨_, ⟨ys, x, zs, rfl, _, h1, _⟩, _⟩ := this
    have := hp x (by simp)
    rw [h1] at this; contradiction
  | abort => rw [hm] at this; exact this.elim
  | ub => rw [hm] at this; exact this.elim

theorem C21_drop_aligned_returns (hA : A.Fits c) {v : AVec A β} {xs : List (Val A.ty β)} (h : v.Holds c xs)
    {env : Env (Val A.ty β)} (hp : ∀ x ∈ xs, env.dropPanics x = false) :
    ∃ v', AVec.drop c env v = .ok () v' ∧ v'.drops = v.drops ++ xs ∧ v'.heap.block = none ∧ v'.heap.leaks = 0 := by
  have := C21_drop_aligned hA h env
  cases hm : AVec.drop c env v with
  | ok u v' => rw [hm] at this; exact ⟨v', rfl, this.2⟩
  | panic v' =>
    rw [hm] at this
    obtain ⟨_, ⟨ys, x, zs, rfl, _, h1, _⟩, _⟩ := this
    have := hp x (by simp)
    rw [h1] at this; contradiction
  | abort => rw [hm] at this; exact this.elim
  | ub => rw [hm] at this; exact this.elim

end

/-! The hypotheses can be met, and both outcomes occur. -/

example : ∃ v', UVec.drop c64d env vecU = .ok () v' ∧ v'.drops = listU ∧ v'.heap.block = none ∧ v'.heap.leaks = 0 :=
  C21_drop_unaligned_returns (vecU_holds _ (.inr rfl)) (by intros; rfl)

example : ∃ v', AVec.drop c64d env vecA = .ok () v' ∧ v'.drops = listA ∧ v'.heap.block = none ∧ v'.heap.leaks = 0 :=
  C21_drop_aligned_returns (bytes_lawful _ (.inr rfl)).fits (vecA_holds _ (.inr rfl)) (by intros; rfl)

example : ∃ v', UVec.drop c64d envPanics vecU = .panic v' ∧ v'.drops = [dyn 1 [1, 2, 3]] := ⟨_, rfl, rfl⟩
example : ∃ v', AVec.drop c64d envPanics vecA = .panic v' ∧ v'.drops = [bytes [1]] := ⟨_, rfl, rfl⟩

end Verif
