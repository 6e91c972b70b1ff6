import Verif.Model.Client
import Verif.Proofs.Exec

/-!
# Functions that own an argument
-/

namespace Verif
variable {V : Type} {T : UTy} {β : Type}

/-- A function that owns `x` and has the outcomes `h` without regard to `x`. -/
theorem giving_outcome {M : Machine V T β} {H : V → Prop} {v : V}
    (hn : ∀ {v x}, H v → H (M.note x v) ∧ M.drops (M.note x v) = M.drops v ++ [x]) {env : Env (Val T β)} {x : Val T β} {m : Exec V Unit}
    {okP : V → Prop} {why refused : Prop}
    (h : (m v).Meets (fun _ v' => okP v') (fun v' => H v' ∧ M.drops v' = M.drops v ∧ why) refused) :
    (M.giving env x m v).Meets (fun _ v' => okP v')
      (fun v' => H v' ∧ M.drops v' = M.drops v ++ [x] ∧ env.dropPanics x = false ∧ why)
      (refused ∨ env.dropPanics x = true ∧ why) := by
  unfold Machine.giving Exec.onUnwind
  cases h1 : m v with
  | ok u v' => rw [h1] at h; exact h
  | abort => rw [h1] at h; exact .inl h
  | ub => rw [h1] at h; exact h
  | panic v' =>
    rw [h1] at h
    obtain ⟨h2, h3, h4⟩ := h
    obtain ⟨h5, h6⟩ := hn (x := x) h2
    dsimp only
    unfold Machine.dropArg
    rw [Exec.modify_bind]
    by_cases hd : env.dropPanics x = true
    · rw [if_pos hd]; exact .inr ⟨hd, h4⟩
    · rw [if_neg hd]; exact ⟨h5, by rw [h6, h3], by simpa using hd, h4⟩

/-- If it returns, it does what it does without regard to `x`. -/
theorem giving_ok {M : Machine V T β} {v v' : V} {env : Env (Val T β)} {x : Val T β} {m : Exec V Unit} (h : m v = .ok () v') :
    M.giving env x m v = .ok () v' := by
  unfold Machine.giving Exec.onUnwind
  rw [h]

theorem giving_abort {M : Machine V T β} {v : V} {env : Env (Val T β)} {x : Val T β} {m : Exec V Unit} (h : m v = .abort) :
    M.giving env x m v = .abort := by
  unfold Machine.giving Exec.onUnwind
  rw [h]

theorem giving_ub {M : Machine V T β} {v : V} {env : Env (Val T β)} {x : Val T β} {m : Exec V Unit} (h : m v = .ub) :
    M.giving env x m v = .ub := by
  unfold Machine.giving Exec.onUnwind
  rw [h]

/-- If it panics, `x` is destroyed. -/
theorem giving_panic {M : Machine V T β} {v v' : V} {env : Env (Val T β)} {x : Val T β} {m : Exec V Unit} (h : m v = .panic v') :
    M.giving env x m v = if env.dropPanics x then .abort else .panic (M.note x v') := by
  unfold Machine.giving Exec.onUnwind
  rw [h]
  dsimp only
  unfold Machine.dropArg
  rw [Exec.modify_bind]
  by_cases hd : env.dropPanics x = true
  · rw [if_pos hd, if_pos hd]; rfl
  · rw [if_neg hd, if_neg hd]; rfl

end Verif
