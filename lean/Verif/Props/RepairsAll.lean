import Verif.Proofs.RepairsAll
import Verif.Props.RepairsProgram

/-!
# C36 of the dynamically aligned vector with all changes

Not about code of `/repo`: `C36_program_unaligned_partial` for the vector with the functions of `Verif/Model/RepairsAll.lean`. What the theorem
asks of a program no longer depends on the state of the vector: no condition on elements without bytes, on where an element is inserted or
removed, on iterators or on shrinking is left. Together with `repaired_program_aligned` this says that the mistakes named in DESIGN.md are the
whole cause of the conditions in C36, up to allocators that grant more than was asked for (not `Exact`) and destructors that panic.
-/

namespace Verif
open ICall Sample

section
variable {β : Type} [Inhabited β] {c : Cfg} {T : UTy}

/-- Every program of safe code has no undefined behaviour and observes what a list would show, unless it drops the result of `remove_into` and
the destructor panics. -/
theorem repaired_all_program_unaligned {v : UVec T β} {s : Ideal T β} (h : Tracks (unalignedAllM c T) (UVec.Holds c) v s)
    (ops : List (Env (Val T β) × Op T β))
    (hs : AlongList (fun env op xs => (env.Valid ∧ env.Exact) ∧ op.WF c xs ∧ UVec.CoveredAll c env op xs) ops s) :
    (runOps c (unalignedAllM c T) ops v).Meets
      (fun os v' => ∃ s', Tracks (unalignedAllM c T) (UVec.Holds c) v' s' ∧ Explains ops s os s' ∧
        (Along c (unalignedAllM c T) (UVec.Holds c) (fun env op v xs => ¬ UVec.Short c env op v xs) ops v s → (os, s') = listRun ops s))
      (fun _ => False)
      (¬ Along c (unalignedAllM c T) (UVec.Holds c) (fun env op v xs => ¬ UVec.Short c env op v xs ∧ ¬ op.Dies env.dropPanics xs) ops v s) :=
  (UVec.clientAll c T).history ops v s h (AlongList.along (fun _ _ _ _ h => h) ops v s hs)

end

/-! ## A program that goes wrong with the code of the repository -/

/-- An element without bytes that needs a larger alignment than the vector has, elements with padding behind them, insertion behind the last
element, and shrinking that lowers the alignment and with it the padding. -/
def progAll : List (Env (Val Dyn Nat) × Op Dyn Nat) :=
  [(env, .pushWith (.value (dyn 16 []))), (env, .push (dyn 1 [1, 2, 3])), (env, .insertWith 2 (.value (dyn 1 [9]))), (env, .remove 0 .take),
    (env, .insert 1 (dyn 1 [4])), (env, .shrink .toFit), (env, .iter [.next, .nextBack, .nextBack])]

theorem progAll_ok : AlongList (fun env op xs => (env.Valid ∧ env.Exact) ∧ op.WF c64d xs ∧ UVec.CoveredAll c64d env op xs) progAll ⟨[], []⟩ := by
  have e : (env : Env (Val Dyn Nat)).Valid ∧ (env : Env (Val Dyn Nat)).Exact := ⟨env_valid, env_exact⟩
  have w : ∀ bs : List Nat, bs.length ≤ 8 → (dyn 1 bs).WF c64d := fun bs hb =>
    dyn_wf 0 bs (by decide) (Nat.one_dvd _) (by have : 8 + 0 ≤ c64.isizeMax := by decide
                                                simp only [Nat.pow_zero]; omega) _ (.inr rfl)
  have w16 : (dyn 16 ([] : List Nat)).WF c64d := dyn_wf 4 [] (by decide) (Nat.dvd_zero _) (by decide) _ (.inr rfl)
  exact ⟨⟨e, w16, trivial⟩, fun _ _ _ => ⟨⟨e, w _ (by decide), trivial⟩, fun _ _ _ => ⟨⟨e, w _ (by decide), trivial⟩, fun _ _ _ =>
    ⟨⟨e, trivial, fun h => nomatch h⟩, fun _ _ _ => ⟨⟨e, w _ (by decide), trivial⟩, fun _ _ _ =>
    ⟨⟨e, trivial, ⟨0, by decide, rfl⟩⟩, fun _ _ _ => ⟨⟨e, trivial, trivial⟩, fun _ _ _ => trivial⟩⟩⟩⟩⟩⟩⟩

/-- The hypotheses are met, and what is observed with and without the changes. -/
example : Tracks (unalignedAllM c64d Dyn) (UVec.Holds c64d) (UVec.newAlignPtr c64d : UVec Dyn Nat) ⟨[], []⟩ :=
  ⟨UVec.newAlignPtr_holds c64d_usizeAlign, rfl⟩

example : observed (runOps c64d (unalignedAllM c64d Dyn) progAll (UVec.newAlignPtr c64d)) =
      some [[0], [0], [0], [5], [0], [0], [6, 1, 2, 3, 9, 4]] ∧
    (listRun progAll ⟨[], []⟩).1.map Out.digits = [[0], [0], [0], [5], [0], [0], [6, 1, 2, 3, 9, 4]] ∧
    observed (runOps c64d (unalignedM c64d Dyn) progAll (UVec.newAlignPtr c64d)) = none ∧
    observed (runOps c64d (unalignedRepairedM c64d Dyn) progAll (UVec.newAlignPtr c64d)) =
      some [[0], [0], [0], [5], [0], [0], [6, 1, 2, 3, 3, 0]] := by decide +kernel

end Verif
