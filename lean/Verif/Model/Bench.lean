import Verif.Model.Stress

/-!
# benches/bench.rs

The benchmarks push the same arrays of `i32`s as src/bin/stress.rs: into a vector that has been made without capacity
(`test_push_arrays`, 21–45), and into one that has been made with enough (`test_push_arrays_preallocated`, 65–82). Here is what is
measured once. `black_box(v)` takes the vector and drops it. The loop is stated for any machine, so that its cost can be counted.
-/

namespace Verif
namespace Bench
open Stress

variable {V β : Type} [Inhabited β]

/-- The calls of `push_unsize` in one turn of the loop (29–39, 72–77). -/
def pushes (c : Cfg) (M : Machine V I32s.ty β) (env : Env (Val I32s.ty β)) (arr : Nat → List β) : List Nat → Exec V Unit
  | [] => pure ()
  | k :: ks => do
    Api.pushUnsize c M env (k : Nat) (array arr k)
    pushes c M env arr ks

/-- The loop (27–41, 71–78), run `r` times; each turn meets its own environment. -/
def turns (c : Cfg) (M : Machine V I32s.ty β) (env : Nat → Env (Val I32s.ty β)) (arr : Nat → List β) : Nat → Exec V Unit
  | 0 => pure ()
  | r + 1 => do
    turns c M env arr r
    pushes c M (env r) arr lengths

/-- The vector is dropped after the loop (43, 80), and also when the loop panics. -/
def finish (c : Cfg) (M : Machine V I32s.ty β) (env : Nat → Env (Val I32s.ty β)) (envD : Env (Val I32s.ty β)) (arr : Nat → List β)
    (r : Nat) : Exec V Unit := do
  Exec.onUnwind (turns c M env arr r) (M.drop envD)
  M.drop envD

/-- `test_push_arrays` (24–44) -/
def pushArrays (c : Cfg) (env : Nat → Env (Val I32s.ty β)) (envD : Env (Val I32s.ty β)) (arr : Nat → List β) (r : Nat) :
    Res (AVec I32s β) Unit :=
  finish c (alignedM c I32s) env envD arr r (Api.new (alignedP c I32s))

/-- `test_push_arrays_preallocated` (67–81) -/
def preallocated (c : Cfg) (env0 : Env (Val I32s.ty β)) (env : Nat → Env (Val I32s.ty β)) (envD : Env (Val I32s.ty β))
    (arr : Nat → List β) (r : Nat) : Res (AVec I32s β) Unit :=
  match Api.withCapacityBytes (alignedP c I32s) env0 slots bytes with
  | .ok _ v => finish c (alignedM c I32s) env envD arr r v
  | r => r

end Bench
end Verif
