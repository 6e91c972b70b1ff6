import Verif.Proofs.Tests
import Verif.Props.Docs

/-!
# C74: the tests of the repository, for all values

The tests of tests/test.rs that use a vector (`Model/Tests`) observe what they assert (`Spec/Tests`), for all values in place of the
literals, unless memory is short: then some call panics, or the process is aborted. Partial: for dynamically
aligned elements the assertions of `test_dyn` do not hold for all values (`C74_counterexample_dynamic`), nor do those of
`test_unsized_aligned` (`C74_counterexample_shrink`), and for zero-sized elements `test_sized` panics (`C74_counterexample_sized`).
-/

namespace Verif
open Docs
section
variable {β : Type} [Inhabited β] {c : Cfg} {A : ATy} {T : UTy} {sz al hi : Nat}

/-- C74, statically aligned elements: all four tests, for all values. -/
theorem C74_tests_aligned (hA : A.Lawful c) (t : Test A.ty β) (hw : t.WF c) (envs : Nat → Env (Val A.ty β)) (he : ∀ i, (envs i).Valid) :
    (runOps c (alignedM c A) (inTurn envs t.ops) AVec.new).Meets
      (fun os v' => (os = t.shows ∧ v'.Holds c t.leaves ∧ v'.drops = []) ∨ (.panicked ∈ os ∧
        ¬ Along c (alignedM c A) (AVec.Holds c) (fun env op v xs => ¬ AVec.Short c env op v xs) (inTurn envs t.ops) AVec.new ⟨[], []⟩))
      (fun _ => False)
      (¬ Along c (alignedM c A) (AVec.Holds c) (fun env op v xs => ¬ AVec.Short c env op v xs) (inTurn envs t.ops) AVec.new ⟨[], []⟩) := by
  refine asserted (AVec.client hA) t ⟨AVec.new_holds hA.fits, rfl⟩
    (AlongList.along (fun _ _ _ _ h => h) _ _ _
      (t.along (Q := fun env op xs => env.Valid ∧ op.WF c xs ∧ AVec.Covered env op xs) envs (fun i op ho hn xs => ⟨he i, ?_⟩) ?_))
  · cases t <;> simp only [Test.ops, List.mem_cons, List.not_mem_nil, or_false] at ho <;>
      simp only [Test.WF] at hw <;>
      (repeat' (rcases ho with rfl | ho)) <;> (try subst ho) <;>
      first
        | exact absurd rfl (hn _)
        | exact ⟨trivial, trivial⟩
        | exact ⟨trivial, okRun_next 3 _ _⟩
        | exact ⟨by simp only [Op.WF, hw], trivial⟩
        | exact ⟨by simp only [Op.WF, hw], fun _ => rfl⟩
  · rintro i x y z w bs (rfl | rfl) xs hx
    · exact ⟨he i, fun u hu => by rw [hx u hu]; exact hw.2.2.2.2, trivial⟩
    · exact ⟨he i, fun u hu => by rw [hx u hu]; exact hw.2.2.2.2, trivial⟩

/-- C74, sized elements: all four tests, for all values that are not zero-sized. -/
theorem C74_tests_sized_partial (hsz : 0 < sz) (t : Test (sizedTy sz al) β) (hw : t.WF c) (envs : Nat → Env (Val (sizedTy sz al) β)) :
    (runOps c (sizedM c sz al) (inTurn envs t.ops) SVec.new).Meets
      (fun os v' => (os = t.shows ∧ v'.Holds c t.leaves ∧ v'.drops = []) ∨ (.panicked ∈ os ∧
        ¬ Along c (sizedM c sz al) (SVec.Holds c) (fun env op v xs => ¬ SVec.Short c env op v xs) (inTurn envs t.ops) SVec.new ⟨[], []⟩))
      (fun _ => False)
      (¬ Along c (sizedM c sz al) (SVec.Holds c) (fun env op v xs => ¬ SVec.Short c env op v xs) (inTurn envs t.ops) SVec.new ⟨[], []⟩) := by
  refine asserted SVec.client t ⟨SVec.new_holds, rfl⟩
    (AlongList.along (fun _ _ _ _ h => ⟨trivial, h⟩) _ _ _
      (t.along (Q := fun env op xs => op.WF c xs ∧ SVec.Covered env op xs) envs (fun i op ho hn xs => ?_) ?_))
  · cases t <;> simp only [Test.ops, List.mem_cons, List.not_mem_nil, or_false] at ho <;>
      simp only [Test.WF] at hw <;>
      (repeat' (rcases ho with rfl | ho)) <;> (try subst ho) <;>
      first
        | exact absurd rfl (hn _)
        | exact ⟨trivial, trivial⟩
        | exact ⟨trivial, hsz⟩
        | exact ⟨by simp only [Op.WF, hw], hsz⟩
        | exact ⟨by simp only [Op.WF, hw], fun _ => hsz⟩
  · rintro i x y z w bs (rfl | rfl) xs hx
    · exact ⟨fun u hu => by rw [hx u hu]; exact hw.2.2.2.2, trivial⟩
    · exact ⟨fun u hu => by rw [hx u hu]; exact hw.2.2.2.2, trivial⟩

/-- C74, dynamically aligned elements, `test_dyn`: zero-sized values must not be aligned to more than `usize`, and the inserted value is
not zero-sized. -/
theorem C74_dynamic_unaligned_partial (hu : IsAlign c c.usizeAlign) (hhi : IsAlign c hi) (hl : c.usizeAlign ≤ hi) {x y w : Val T β}
    (hw : (Test.dynamic x y w).WF c) (hx : UVec.Addable c.usizeAlign hi x.size x.align) (hy : UVec.Addable c.usizeAlign hi y.size y.align)
    (h0 : 0 < w.size) (envs : Nat → Env (Val T β)) (he : ∀ i, (envs i).Valid ∧ (envs i).Exact) :
    (runOps c (unalignedM c T) (inTurn envs (Test.dynamic x y w).ops) (UVec.newAlignPtr c)).Meets
      (fun os v' => (os = (Test.dynamic x y w).shows ∧ v'.Holds c [x] ∧ v'.drops = []) ∨ (.panicked ∈ os ∧
        ¬ Along c (unalignedM c T) (UVec.Holds c) (fun env op v xs => ¬ UVec.Short c env op v xs) (inTurn envs (Test.dynamic x y w).ops)
          (UVec.newAlignPtr c) ⟨[], []⟩))
      (fun _ => False)
      (¬ Along c (unalignedM c T) (UVec.Holds c) (fun env op v xs => ¬ UVec.Short c env op v xs) (inTurn envs (Test.dynamic x y w).ops)
        (UVec.newAlignPtr c) ⟨[], []⟩) :=
  asserted (UVec.client True c T) (.dynamic x y w) ⟨UVec.newAlignPtr_holds hu, rfl⟩
    (dynamic_along hhi he hw hx hy h0 ⟨UVec.newAlignPtr_holds hu, rfl⟩ ⟨Nat.le_refl c.usizeAlign, hl⟩)

/-- C74, dynamically aligned elements: all four tests, for values whose sizes are positive multiples of a bound for the alignments. -/
theorem C74_tests_unaligned_partial (hu : IsAlign c c.usizeAlign) (hhi : IsAlign c hi) (hl : c.usizeAlign ≤ hi) (t : Test T β) (hw : t.WF c)
    (ht : ∀ x ∈ t.vals, 0 < x.size ∧ x.align ≤ hi ∧ hi ∣ x.size) (envs : Nat → Env (Val T β)) (he : ∀ i, (envs i).Valid ∧ (envs i).Exact) :
    (runOps c (unalignedM c T) (inTurn envs t.ops) (UVec.newAlignPtr c)).Meets
      (fun os v' => (os = t.shows ∧ v'.Holds c t.leaves ∧ v'.drops = []) ∨ (.panicked ∈ os ∧
        ¬ Along c (unalignedM c T) (UVec.Holds c) (fun env op v xs => ¬ UVec.Short c env op v xs) (inTurn envs t.ops)
          (UVec.newAlignPtr c) ⟨[], []⟩))
      (fun _ => False)
      (¬ Along c (unalignedM c T) (UVec.Holds c) (fun env op v xs => ¬ UVec.Short c env op v xs) (inTurn envs t.ops)
        (UVec.newAlignPtr c) ⟨[], []⟩) :=
  asserted (UVec.client True c T) t ⟨UVec.newAlignPtr_holds hu, rfl⟩
    (UVec.plainShrink_along hhi (t.plainShrink (isAlign_one_of hhi) hw ht envs he) ⟨UVec.newAlignPtr_holds hu, rfl⟩ hl)

/-- C74, dynamically aligned elements, the calls of `test_sized`. -/
theorem C74_sized_unaligned_partial (hu : IsAlign c c.usizeAlign) (hhi : IsAlign c hi) (hl : c.usizeAlign ≤ hi) {x y : Val T β}
    (hw : (Test.sized x y).WF c) (hx : UVec.Addable c.usizeAlign hi x.size x.align) (h0 : 0 < y.size) (envs : Nat → Env (Val T β))
    (he : ∀ i, (envs i).Valid ∧ (envs i).Exact) :
    (runOps c (unalignedM c T) (inTurn envs (Test.sized x y).ops) (UVec.newAlignPtr c)).Meets
      (fun os v' => (os = (Test.sized x y).shows ∧ v'.Holds c [x, y] ∧ v'.drops = []) ∨ (.panicked ∈ os ∧
        ¬ Along c (unalignedM c T) (UVec.Holds c) (fun env op v xs => ¬ UVec.Short c env op v xs) (inTurn envs (Test.sized x y).ops)
          (UVec.newAlignPtr c) ⟨[], []⟩))
      (fun _ => False)
      (¬ Along c (unalignedM c T) (UVec.Holds c) (fun env op v xs => ¬ UVec.Short c env op v xs) (inTurn envs (Test.sized x y).ops)
        (UVec.newAlignPtr c) ⟨[], []⟩) :=
  asserted (UVec.client True c T) (.sized x y) ⟨UVec.newAlignPtr_holds hu, rfl⟩
    (sized_along hhi he hw hx h0 ⟨UVec.newAlignPtr_holds hu, rfl⟩ ⟨Nat.le_refl c.usizeAlign, hl⟩)

end

/-! ## Examples and counterexamples -/
section
open Sample

/-- `test_dyn` with a zero-sized value that is aligned to 16 in place of `()`: the first `push` panics (in a build with
overflow checks and debug assertions), though no memory is refused. -/
theorem C74_counterexample_dynamic : observed (runOps c64d (unalignedM c64d Dyn)
    (inTurn (fun _ => env) (Test.dynamic (dyn 16 []) (dyn 2 [1, 0]) (dyn 1 [7])).ops) (UVec.newAlignPtr c64d)) = some
      [[4, 0], [1], [4, 0], [0], [4, 1], [5, 1, 0], [4, 0], [0], [0], [4, 1], [5, 7], [1], [6, 7], [5, 7], [4, 0], [1]] := by decide +kernel

/-- `test_dyn` with such a value in place of the string: `insert` panics. -/
theorem C74_counterexample_insert : observed (runOps c64d (unalignedM c64d Dyn)
    (inTurn (fun _ => env) (Test.dynamic (dyn 1 []) (dyn 2 [1, 0]) (dyn 16 [])).ops) (UVec.newAlignPtr c64d)) = some
      [[4, 0], [0], [4, 1], [0], [4, 2], [5, 1, 0], [4, 1], [0], [1], [4, 1], [5], [1], [6], [5], [4, 0], [1]] := by decide +kernel

/-- `test_sized` with `()` in place of the numbers: every `push` panics. -/
theorem C74_counterexample_sized : observed (runOps c64d (sizedM c64d 0 1)
    (inTurn (fun _ => (env : Env (Val (sizedTy 0 1) Nat))) (Test.sized ⟨(), []⟩ ⟨(), []⟩).ops) SVec.new) = some
      [[4, 0], [1], [4, 0], [1], [1], [1], [4, 0], [1]] := by decide +kernel

/-- `test_dyn` with values of three alignments. -/
def testDyn : Test Dyn Nat := .dynamic (dyn 4 [1, 2, 3, 4]) (dyn 16 (List.range 16)) (dyn 1 [7])

example : observed (runOps c64d (unalignedM c64d Dyn) (inTurn (fun _ => env) testDyn.ops) (UVec.newAlignPtr c64d)) =
    some (testDyn.shows.map Out.digits) := by decide +kernel

/-- `test_unsized_drop` with values of several types. -/
def testDropDyn : Test Dyn Nat := .unsizedDrop (dyn 4 (List.range 8)) (dyn 8 (List.range 16)) (dyn 1 (List.range 8)) (dyn 2 (List.range 24)) [8, 7, 6, 5, 4, 3, 2, 1]

example : observed (runOps c64d (unalignedM c64d Dyn) (inTurn (fun _ => env) testDropDyn.ops) (UVec.newAlignPtr c64d)) =
    some (testDropDyn.shows.map Out.digits) := by decide +kernel

/-- The calls of `test_unsized_aligned` with one byte in each value: after `shrink_to_fit` the second element (the third, after `insert`) is not
where it is looked for, and `vec[2]` and the last `vec[1]` read a byte that was never written, in place of 2. -/
theorem C74_counterexample_shrink : observed (runOps c64d (unalignedM c64d Dyn) (inTurn (fun _ => env)
    (Test.unsizedAligned (dyn 1 [1]) (dyn 1 [2]) (dyn 1 [3]) (dyn 1 [4]) [5]).ops) (UVec.newAlignPtr c64d)) = some
      [[4, 0], [0], [4, 1], [5, 1], [0], [5, 2], [0], [0], [0], [5, 5], [5, 5], [0], [5, 4], [5, 1], [5, 0], [5, 1], [5, 4], [5, 0]] := by
  decide +kernel

/-- `test_unsized_drop` with other slices. -/
def testDrop : Test Bytes.ty Nat := .unsizedDrop (bytes []) (bytes [1, 2]) (bytes [3]) (bytes [4, 5, 6]) [9]

example : observed (runOps c64d (alignedM c64d Bytes) (inTurn (fun _ => env) testDrop.ops) AVec.new) =
    some (testDrop.shows.map Out.digits) := by decide +kernel
example : testDrop.shows.drop 6 = [.done, .done, .value (bytes [9]), .value (bytes [9]), .done, .value (bytes [4, 5, 6]), .value (bytes []),
    .value (bytes [1, 2]), .done, .value (bytes []), .value (bytes [4, 5, 6]), .value (bytes [1, 2])] := rfl

attribute [local irreducible] runOps

example := C74_dynamic_unaligned_partial (c := c64d) (hi := 16) (x := dyn 4 [1, 2, 3, 4]) (y := dyn 16 (List.range 16)) (w := dyn 1 [7])
  c64d_usizeAlign ⟨4, by decide, rfl⟩ (by decide)
  ⟨dyn_wf 2 _ (by decide) (by decide) (by decide) _ (.inr rfl), dyn_wf 4 _ (by decide) (by decide) (by decide) _ (.inr rfl),
    dyn_wf 0 _ (by decide) (by decide) (by decide) _ (.inr rfl)⟩ (by unfold UVec.Addable; decide) (by unfold UVec.Addable; decide) (by decide)
  (fun _ => env) (fun _ => ⟨env_valid, env_exact⟩)

/-- The values of `test_dyn` itself: a zero-sized one, a `u16`, and one that takes 16 bytes. -/
example := C74_dynamic_unaligned_partial (c := c64d) (hi := 8) (x := dyn 1 []) (y := dyn 2 [1, 0]) (w := dyn 8 (List.range 16))
  c64d_usizeAlign ⟨3, by decide, rfl⟩ (by decide)
  ⟨dyn_wf 0 _ (by decide) (by decide) (by decide) _ (.inr rfl), dyn_wf 1 _ (by decide) (by decide) (by decide) _ (.inr rfl),
    dyn_wf 3 _ (by decide) (by decide) (by decide) _ (.inr rfl)⟩ (by unfold UVec.Addable; decide) (by unfold UVec.Addable; decide) (by decide)
  (fun _ => env) (fun _ => ⟨env_valid, env_exact⟩)

example := C74_tests_unaligned_partial (c := c64d) (hi := 8) c64d_usizeAlign ⟨3, by decide, rfl⟩ (by decide) testDropDyn
  ⟨dyn_wf 2 _ (by decide) (by decide) (by decide) _ (.inr rfl), dyn_wf 3 _ (by decide) (by decide) (by decide) _ (.inr rfl),
    dyn_wf 0 _ (by decide) (by decide) (by decide) _ (.inr rfl), dyn_wf 1 _ (by decide) (by decide) (by decide) _ (.inr rfl), rfl⟩
  (by
    intro x hx
    simp only [testDropDyn, Test.vals, List.mem_cons, List.not_mem_nil, or_false] at hx
    rcases hx with rfl | rfl | rfl | rfl <;> decide) (fun _ => env) (fun _ => ⟨env_valid, env_exact⟩)

example := C74_sized_unaligned_partial (c := c64d) (hi := 8) (x := dyn 4 [1, 2, 3, 4]) (y := dyn 1 [7])
  c64d_usizeAlign ⟨3, by decide, rfl⟩ (by decide)
  ⟨dyn_wf 2 _ (by decide) (by decide) (by decide) _ (.inr rfl), dyn_wf 0 _ (by decide) (by decide) (by decide) _ (.inr rfl)⟩
  (by unfold UVec.Addable; decide) (by decide) (fun _ => env) (fun _ => ⟨env_valid, env_exact⟩)

example := C74_tests_aligned (c := c64d) (bytes_lawful c64d (.inr rfl)) testDrop
  ⟨bytes_wf _ (by decide) _ (.inr rfl), bytes_wf _ (by decide) _ (.inr rfl), bytes_wf _ (by decide) _ (.inr rfl),
    bytes_wf _ (by decide) _ (.inr rfl), rfl⟩ (fun _ => env) (fun _ => env_valid)

example := C74_tests_sized_partial (c := c64d) (sz := 2) (al := 1) (by decide) (.sized ⟨(), [1, 2]⟩ ⟨(), [3, 4]⟩)
  (by constructor <;> exact ⟨rfl, ⟨0, by decide, rfl⟩, ⟨2, rfl⟩, by show 2 + 0 ≤ _; decide⟩) (fun _ => (env : Env (Val (sizedTy 2 1) Nat)))

end
end Verif
