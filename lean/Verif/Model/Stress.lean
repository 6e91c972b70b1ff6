import Verif.Model.Owned

/-!
# src/bin/stress.rs

The program pushes arrays of `i32`s into a vector that has been made with enough capacity, and asserts that the byte capacity has
not changed. It does so a hundred times; here is one of these rounds (18–34). What the arrays contain, and how often the inner loop
runs, are parameters. `black_box` is the identity.
-/

namespace Verif
namespace Stress

/-- `[i32]` -/
abbrev I32s : ATy := ATy.slice 4 4

/-- The lengths of `ARR0`, …, `ARR13` (5–14), in the order in which they are pushed (22–27). -/
def lengths : List Nat := [0, 1, 2, 3, 4, 13]

/-- `256 * 6` (19) -/
def slots : Nat := 256 * 6

/-- `size_of::<i32>() * 256 * (13 + 4 + 3 + 2 + 1)` (19, 31) -/
def bytes : Nat := 4 * 256 * (13 + 4 + 3 + 2 + 1)

variable {β : Type} [Inhabited β]

/-- The array of `k` numbers. -/
def array (arr : Nat → List β) (k : Nat) : Val (sizedTy (k * 4) 4) β := ⟨(), arr k⟩

/-- The calls of `push_unsize` in one turn of the inner loop (22–27). -/
def pushes (c : Cfg) (env : Env (Val I32s.ty β)) (arr : Nat → List β) : List Nat → Exec (AVec I32s β) Unit
  | [] => pure ()
  | k :: ks => do
    Api.pushUnsize c (alignedM c I32s) env (k : Nat) (array arr k)
    pushes c env arr ks

/-- The inner loop (21–28), run `r` times; each turn meets its own environment. -/
def turns (c : Cfg) (env : Nat → Env (Val I32s.ty β)) (arr : Nat → List β) : Nat → Exec (AVec I32s β) Unit
  | 0 => pure ()
  | r + 1 => do
    turns c env arr r
    pushes c (env r) arr lengths

/-- `assert_eq!(v.byte_capacity(), …)` (29–32) -/
def check (c : Cfg) : Exec (AVec I32s β) Unit := do
  let v ← Exec.get
  let cap ← Exec.orUb ((alignedP c I32s).byteCapacity v)
  Exec.assert (cap = bytes)

/-- The body of the outer loop (18–34). At the end, or when something panics, the vector is dropped (with environment `envD`). -/
def round (c : Cfg) (env0 : Env (Val I32s.ty β)) (env : Nat → Env (Val I32s.ty β)) (envD : Env (Val I32s.ty β)) (arr : Nat → List β)
    (r : Nat) : Res (AVec I32s β) Unit :=
  match Api.withCapacityBytes (alignedP c I32s) env0 slots bytes with
  | .ok _ v =>
    (do
      Exec.onUnwind (do turns c env arr r; check c) (AVec.drop c envD)
      AVec.drop c envD) v
  | r => r

end Stress
end Verif
