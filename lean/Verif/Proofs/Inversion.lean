import Verif.Proofs.Run

/-!
# What is known about the parts of a computation that has returned
-/

namespace Verif
variable {σ τ α γ : Type}

theorem Exec.bind_ok_inv {m : Exec σ α} {f : α → Exec σ γ} {s s'' : σ} {b : γ} (h : (m >>= f) s = .ok b s'') :
    ∃ a s', m s = .ok a s' ∧ f a s' = .ok b s'' := by
  cases hm : m s with
  | ub => rw [Exec.bind_ub hm] at h; cases h
  | abort => rw [Exec.bind_abort hm] at h; cases h
  | panic s1 => rw [Exec.bind_panic hm] at h; cases h
  | ok a s1 => rw [Exec.bind_ok hm] at h; exact ⟨a, s1, rfl, h⟩

theorem Exec.onUnwind_ok_inv {m : Exec σ α} {cleanup : Exec σ Unit} {s s' : σ} {a : α} (h : Exec.onUnwind m cleanup s = .ok a s') :
    m s = .ok a s' := by
  unfold Exec.onUnwind at h
  cases hm : m s with
  | panic s1 =>
    rw [hm] at h
    dsimp only at h
    cases hc : cleanup s1 <;> rw [hc] at h <;> cases h
  | _ => rw [hm] at h; exact h

theorem liftL_ok_inv {m : Exec σ α} {s s' : σ} {t t' : τ} {a : α} (h : liftL m (s, t) = .ok a (s', t')) :
    m s = .ok a s' ∧ t = t' := by
  cases hm : m s with
  | ub => rw [liftL_ub hm] at h; cases h
  | abort => rw [liftL_abort hm] at h; cases h
  | panic s1 => rw [liftL_panic hm] at h; cases h
  | ok a s1 => rw [liftL_ok hm] at h; cases h; exact ⟨rfl, rfl⟩

theorem liftR_ok_inv {m : Exec τ α} {s s' : σ} {t t' : τ} {a : α} (h : liftR m (s, t) = .ok a (s', t')) :
    s = s' ∧ m t = .ok a t' := by
  cases hm : m t with
  | ub => rw [liftR_ub hm] at h; cases h
  | abort => rw [liftR_abort hm] at h; cases h
  | panic s1 => rw [liftR_panic hm] at h; cases h
  | ok a s1 => rw [liftR_ok hm] at h; cases h; exact ⟨rfl, rfl⟩

end Verif
