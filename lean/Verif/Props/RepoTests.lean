import Verif.Props.History

/-!
# The repository's own tests, run on the model

These are checks of the model, not proofs about the code: the tests in /repo/tests/test.rs are translated call by call into
programs, and the model makes the observations that the tests assert. (`box_new_with` is the emplacer that moves the value out;
`Box<i32>` takes eight bytes, `i32` four, `&str` sixteen, `u16` two. `[T]` is told from its elements by the first byte of each.)
-/

namespace Verif
namespace RepoTests
open Sample

/-- An element of a slice that takes `sz` bytes. -/
def elem (sz n : Nat) : List Nat := n :: List.replicate (sz - 1) 0

/-- A slice with such elements. -/
def slice {sz al : Nat} (ns : List Nat) : Val (ATy.slice sz al).ty Nat := ⟨ns.length, ns.flatMap (elem sz)⟩

/-- The bytes of the slice. -/
def raw (sz : Nat) (ns : List Nat) : List Nat := ns.flatMap (elem sz)

section
variable {V : Type} {T : UTy}

/-- A test is a program in which every call meets the same environment. -/
def run (c : Cfg) (M : Machine V T Nat) (ops : List (Op T Nat)) (v : V) : Option (List (List Nat)) :=
  observed (runOps c M (ops.map (fun op => (env, op))) v)

end

/-- The bytes that an observation of slices consists of, one for each element. -/
def heads (sz : Nat) : Option (List (List Nat)) → Option (List (List Nat)) :=
  Option.map (List.map fun
    | 5 :: bs => 5 :: (List.range (bs.length / sz)).map (fun i => bs.getD (sz * i) 0)
    | o => o)

/-- `test_capacity_growth` (tests/test.rs:9–21), for a configuration. -/
def capacityGrowth (c : Cfg) : Option (Nat × Nat × Nat) :=
  match Api.withCapacityBytes (alignedP c (ATy.slice 4 4)) env 6 (4 * 15) with
  | .ok _ v =>
    match runOps c (alignedM c (ATy.slice 4 4))
        ([[], [1], [1, 2], [1, 2, 3], [1, 2, 3, 4], [1, 2, 3, 4, 5]].map (fun ns => (env, .push (slice ns)))) v with
    | .ok _ v => some (v.len, v.elemsCap, v.byteCap)
    | _ => none
  | _ => none

example : capacityGrowth c64d = some (6, 6, 60) ∧ capacityGrowth c64 = some (6, 6, 60) := by decide +kernel

/-- `test_sized` (29–43): `i32`. -/
def sized : List (Op (sizedTy 4 4) Nat) :=
  [.len, .push ⟨(), elem 4 32⟩, .len, .index 0, .shrink .toFit, .push ⟨(), elem 4 34⟩, .len, .index 1]

example : run c64d (sizedM c64d 4 4) sized SVec.new = some
    [[4, 0], [0], [4, 1], 5 :: elem 4 32, [0], [0], [4, 2], 5 :: elem 4 34] := by decide +kernel

/-- `test_unsized_drop` (47–114): `[Box<i32>]`. (The −1 is written 255.) -/
def unsizedDrop : List (Op (ATy.slice 8 8).ty Nat) :=
  [.len, .push (slice [1, 2]), .len, .index 0,
    .push (slice []), .index 1,
    .push (slice [4, 7, 3]), .set 2 (raw 8 [4, 19, 3]), .index 2,
    .pop .take,
    .insert 0 (slice [4, 7, 3, 4, 5, 6, 6, 255]), .index 0, .index 1, .index 2,
    .shrink .toFit,
    .remove 1 .take, .index 0, .index 1]

example : heads 8 (run c64d (alignedM c64d (ATy.slice 8 8)) unsizedDrop AVec.new) = some
    [[4, 0], [0], [4, 1], [5, 1, 2],
      [0], [5],
      [0], [0], [5, 4, 19, 3],
      [5, 4, 19, 3],
      [0], [5, 4, 7, 3, 4, 5, 6, 6, 255], [5, 1, 2], [5],
      [0],
      [5, 1, 2], [5, 4, 7, 3, 4, 5, 6, 6, 255], [5]] := by decide +kernel

/-- The `&str` of `test_dyn`: a pointer and the length 11. -/
def walla : List Nat := [0, 64, 7, 0, 0, 0, 0, 0, 11, 0, 0, 0, 0, 0, 0, 0]

/-- `test_dyn` (116–146): `dyn Debug`. -/
def dynamic : List (Op Dyn Nat) :=
  [.len, .push (dyn 1 []), .len, .push (dyn 2 [1, 0]), .len, .pop .take, .len, .shrink .toFit,
    .insert 0 (dyn 8 walla), .len, .index 0, .index 1, .iter [.next, .next, .next],
    .remove 0 .take, .len, .index 0]

example : run c64d (unalignedM c64d Dyn) dynamic (UVec.newAlignPtr c64d) = some
    [[4, 0], [0], [4, 1], [0], [4, 2], [5, 1, 0], [4, 1], [0],
      [0], [4, 2], 5 :: walla, [5], 6 :: walla,
      5 :: walla, [4, 1], [5]] := by decide +kernel

/-- `test_unsized_aligned` (148–179): `[i32]`. -/
def unsizedAligned : List (Op (ATy.slice 4 4).ty Nat) :=
  [.len, .push (slice [1, 2]), .len, .index 0,
    .push (slice []), .index 1,
    .shrink .toFit,
    .push (slice [4, 7, 3]), .set 2 (raw 4 [4, 19, 3]), .index 2,
    .pop .take,
    .insert 0 (slice [4, 7, 3, 4, 5, 6, 6, 255]), .index 0, .index 1, .index 2,
    .remove 1 .take, .index 0, .index 1]

example : heads 4 (run c64d (alignedM c64d (ATy.slice 4 4)) unsizedAligned AVec.new) = some
    [[4, 0], [0], [4, 1], [5, 1, 2],
      [0], [5],
      [0],
      [0], [0], [5, 4, 19, 3],
      [5, 4, 19, 3],
      [0], [5, 4, 7, 3, 4, 5, 6, 6, 255], [5, 1, 2], [5],
      [5, 1, 2], [5, 4, 7, 3, 4, 5, 6, 6, 255], [5]] := by decide +kernel

end RepoTests
end Verif
