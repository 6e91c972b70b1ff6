import Verif.Proofs.RepairsHistory
import Verif.Props.History

/-!
# C36 of the corrected vectors

Not about code of `/repo`: `C36_program_aligned_partial` and `C36_program_unaligned_partial` for the vectors with the functions of
`Verif/Model/Repairs.lean`. The guards on `insert`, on `insert_with`, on the place of a removed element and on the use of iterators are gone.
-/

namespace Verif
open ICall Sample

section
variable {β : Type} [Inhabited β] {c : Cfg} {A : ATy} {T : UTy}

/-- Statically aligned elements: every program of safe code has no undefined behaviour and observes what a list would show, unless it drops
the result of `remove_into` and the destructor panics. -/
theorem repaired_program_aligned (hA : A.Lawful c) {v : AVec A β} {s : Ideal A.ty β}
    (h : Tracks (alignedRepairedM c A) (AVec.Holds c) v s) (ops : List (Env (Val A.ty β) × Op A.ty β))
    (hs : AlongList (fun env op xs => env.Valid ∧ op.WF c xs ∧
      ∀ i x, op = .remove i .drop → xs[i]? = some x → env.dropPanics x = false) ops s) :
    (runOps c (alignedRepairedM c A) ops v).Meets
      (fun os v' => ∃ s', Tracks (alignedRepairedM c A) (AVec.Holds c) v' s' ∧ Explains ops s os s' ∧
        (Along c (alignedRepairedM c A) (AVec.Holds c) (fun env op v xs => ¬ AVec.Short c env op v xs) ops v s → (os, s') = listRun ops s))
      (fun _ => False)
      (¬ Along c (alignedRepairedM c A) (AVec.Holds c) (fun env op v xs => ¬ AVec.Short c env op v xs ∧ ¬ op.Dies env.dropPanics xs) ops v s) :=
  (AVec.clientRepaired hA).history ops v s h (AlongList.along (fun _ _ _ _ h => h) ops v s hs)

/-- Dynamically aligned elements. What is left concerns zero-sized elements in a vector without memory (`ZstOk`), shrinking, and destructors
that panic. -/
theorem repaired_program_unaligned {G : Prop} {v : UVec T β} {s : Ideal T β}
    (h : Tracks (unalignedRepairedM c T) (UVec.Represents G c) v s) (ops : List (Env (Val T β) × Op T β))
    (hs : Along c (unalignedRepairedM c T) (UVec.Represents G c)
      (fun env op v xs => (env.Valid ∧ (G → env.Exact)) ∧ op.WF c xs ∧ UVec.CoveredRepaired G c env op v xs) ops v s) :
    (runOps c (unalignedRepairedM c T) ops v).Meets
      (fun os v' => ∃ s', Tracks (unalignedRepairedM c T) (UVec.Represents G c) v' s' ∧ Explains ops s os s' ∧
        (Along c (unalignedRepairedM c T) (UVec.Represents G c) (fun env op v xs => ¬ UVec.Short c env op v xs) ops v s → (os, s') = listRun ops s))
      (fun _ => False)
      (¬ Along c (unalignedRepairedM c T) (UVec.Represents G c) (fun env op v xs => ¬ UVec.Short c env op v xs ∧ ¬ op.Dies env.dropPanics xs)
        ops v s) :=
  (UVec.clientRepaired G c T).history ops v s h hs

end

/-! ## Programs that go wrong with the code of the repository -/

/-- Inserts between elements and visits the elements from both ends. -/
def progFixedA : List (Env (Val Bytes.ty Nat) × Op Bytes.ty Nat) :=
  [(env, .insert 2 (bytes [7, 8])), (env, .iter [.next, .nextBack, .nth 0, .nextBack])]

theorem progFixedA_ok : AlongList (fun env op xs => env.Valid ∧ op.WF c64d xs ∧
    ∀ i x, op = .remove i .drop → xs[i]? = some x → env.dropPanics x = false) progFixedA ⟨listA, []⟩ :=
  ⟨⟨env_valid, bytes_wf _ (by decide) _ (.inr rfl), fun _ _ h => nomatch h⟩, fun _ _ _ =>
    ⟨⟨env_valid, trivial, fun _ _ h => nomatch h⟩, fun _ _ _ => trivial⟩⟩

/-- The hypotheses are met, and what is observed with and without the changes. -/
example : Tracks (alignedRepairedM c64d Bytes) (AVec.Holds c64d) vecA ⟨listA, []⟩ := ⟨vecA_holds c64d (.inr rfl), rfl⟩

example : observed (runOps c64d (alignedRepairedM c64d Bytes) progFixedA vecA) = some [[0], [6, 1, 4, 5, 6, 2, 3, 7, 8]] ∧
    (listRun progFixedA ⟨listA, []⟩).1.map Out.digits = [[0], [6, 1, 4, 5, 6, 2, 3, 7, 8]] ∧
    observed (runOps c64d (alignedM c64d Bytes) progFixedA vecA) ≠ some [[0], [6, 1, 4, 5, 6, 2, 3, 7, 8]] := by decide +kernel

/-- Raises the alignment, adds and removes behind an element that has padding, and inserts in the middle. -/
def progFixedU : List (Env (Val Dyn Nat) × Op Dyn Nat) :=
  [(env, .push (dyn 1 [1, 2, 3])), (env, .insertWith 1 (.value (dyn 1 [9]))), (env, .remove 1 .take), (env, .insert 1 (dyn 1 [4])),
    (env, .insert 1 (dyn 1 [5, 6])), (env, .iter [.next, .nextBack, .nextBack])]

theorem progFixedU_ok : Along c64d (unalignedRepairedM c64d Dyn) (UVec.Holds c64d)
    (fun env op v xs => (env.Valid ∧ (True → env.Exact)) ∧ op.WF c64d xs ∧ UVec.CoveredRepaired True c64d env op v xs) progFixedU
    (UVec.newAlignPtr c64d) ⟨[], []⟩ := by
  have e : (env : Env (Val Dyn Nat)).Valid ∧ (True → (env : Env (Val Dyn Nat)).Exact) := ⟨env_valid, fun _ => env_exact⟩
  have z : ∀ (v : UVec Dyn Nat) (bs : List Nat), bs ≠ [] → v.ZstOk (dyn 1 bs).size (dyn 1 bs).align := by
    intro v bs hb _ h
    exact absurd (List.length_eq_zero_iff.1 h) hb
  have w : ∀ bs : List Nat, bs.length ≤ 8 → (dyn 1 bs).WF c64d := fun bs hb =>
    dyn_wf 0 bs (by decide) (Nat.one_dvd _) (by have : 8 + 0 ≤ c64.isizeMax := by decide
                                                simp only [Nat.pow_zero]; omega) _ (.inr rfl)
  exact ⟨⟨e, w _ (by decide), z _ _ (by simp), fun h => absurd trivial h⟩, fun _ _ _ _ _ _ =>
    ⟨⟨e, w _ (by decide), z _ _ (by simp)⟩, fun _ _ _ _ _ _ =>
    ⟨⟨e, trivial, fun h => nomatch h⟩, fun _ _ _ _ _ _ =>
    ⟨⟨e, w _ (by decide), z _ _ (by simp), fun h => absurd trivial h⟩, fun _ _ _ _ _ _ =>
    ⟨⟨e, w _ (by decide), z _ _ (by simp), fun h => absurd trivial h⟩, fun _ _ _ _ _ _ =>
    ⟨⟨e, trivial, trivial⟩, fun _ _ _ _ _ _ => trivial⟩⟩⟩⟩⟩⟩

example : Tracks (unalignedRepairedM c64d Dyn) (UVec.Holds c64d) (UVec.newAlignPtr c64d : UVec Dyn Nat) ⟨[], []⟩ :=
  ⟨UVec.newAlignPtr_holds c64d_usizeAlign, rfl⟩

example : observed (runOps c64d (unalignedRepairedM c64d Dyn) progFixedU (UVec.newAlignPtr c64d)) =
      some [[0], [0], [5, 9], [0], [0], [6, 1, 2, 3, 4, 5, 6]] ∧
    (listRun progFixedU ⟨[], []⟩).1.map Out.digits = [[0], [0], [5, 9], [0], [0], [6, 1, 2, 3, 4, 5, 6]] ∧
    observed (runOps c64d (unalignedM c64d Dyn) progFixedU (UVec.newAlignPtr c64d)) = none := by decide +kernel

end Verif
