import Verif.Model.Protocol
import Verif.Spec.Basic

/-!
# Reasoning about executions
-/

namespace Verif

namespace Res.Meets
variable {σ α β : Type} {Q Q' : α → σ → Prop} {P P' : σ → Prop} {A A' : Prop}

theorem mono {r : Res σ α} (h : r.Meets Q P A) (hQ : ∀ a s, Q a s → Q' a s) (hP : ∀ s, P s → P' s) (hA : A → A') :
    r.Meets Q' P' A' := by
  cases r with
  | ok a s => exact hQ a s h
  | panic s => exact hP s h
  | abort => exact hA h
  | ub => exact h

theorem and {r : Res σ α} (h : r.Meets Q P A) (h' : r.Meets Q' P' A') :
    r.Meets (fun a s => Q a s ∧ Q' a s) (fun s => P s ∧ P' s) (A ∧ A') := by
  cases r with
  | ub => exact h
  | _ => exact ⟨h, h'⟩

theorem of_ok {r : Res σ α} {a : α} {s : σ} (h : r = .ok a s) (hq : Q a s) : r.Meets Q P A := by
  rw [h]; exact hq

theorem of_panic {r : Res σ α} {s : σ} (h : r = .panic s) (hq : P s) : r.Meets Q P A := by
  rw [h]; exact hq

theorem ok_of {r : Res σ α} (h : r.Meets Q (fun _ => False) False) : ∃ a s, r = .ok a s ∧ Q a s := by
  cases r with
  | ok a s => exact ⟨a, s, rfl, h⟩
  | panic s => exact h.elim
  | abort => exact h.elim
  | ub => exact h.elim

theorem not_ub {r : Res σ α} (h : r.Meets Q P A) : r ≠ .ub := by
  rintro rfl; exact h

theorem bind {m : Exec σ α} {f : α → Exec σ β} {s : σ} {R : β → σ → Prop}
    (h : (m s).Meets Q P A) (hf : ∀ a s', Q a s' → (f a s').Meets R P A) : ((m >>= f) s).Meets R P A := by
  rw [Exec.bind_apply]
  cases hm : m s with
  | ok a s' => rw [hm] at h; exact hf a s' h
  | panic s' => rw [hm] at h; exact h
  | abort => rw [hm] at h; exact h
  | ub => rw [hm] at h; exact h

end Res.Meets

namespace Exec
variable {σ α β : Type}

theorem orUb_bind {o : Option α} {a : α} (h : o = some a) (f : α → Exec σ β) (s : σ) :
    ((orUb o : Exec σ α) >>= f) s = f a s := by subst h; rfl

theorem orUb_bind_none {o : Option α} (h : o = none) (f : α → Exec σ β) (s : σ) :
    ((orUb o : Exec σ α) >>= f) s = .ub := by subst h; rfl

theorem orUb_eq {o : Option α} {a : α} (h : o = some a) (s : σ) : (orUb o : Exec σ α) s = .ok a s := by subst h; rfl

theorem require_bind {p : Prop} [Decidable p] (h : p) (f : Unit → Exec σ β) (s : σ) :
    ((require p : Exec σ Unit) >>= f) s = f () s := bind_ok (require_pos h s)

theorem assert_bind {p : Prop} [Decidable p] (h : p) (f : Unit → Exec σ β) (s : σ) :
    ((assert p : Exec σ Unit) >>= f) s = f () s := bind_ok (assert_pos h s)

theorem assert_bind_neg {p : Prop} [Decidable p] (h : ¬ p) (f : Unit → Exec σ β) (s : σ) :
    ((assert p : Exec σ Unit) >>= f) s = .panic s := bind_panic (assert_neg h s)

/-- An assertion in a function that owns a value. -/
theorem guardedAssert_bind {p : Prop} [Decidable p] (h : p) (m : Exec σ Unit) (f : Unit → Exec σ β) (s : σ) :
    (onUnwind (assert p) m >>= f) s = f () s := bind_ok (by unfold onUnwind; rw [assert_pos h])

theorem guardedAssert_bind_neg {p : Prop} [Decidable p] (h : ¬ p) (m : Exec σ Unit) (f : Unit → Exec σ β) (s : σ) :
    (onUnwind (assert p) m >>= f) s =
      (match m s with | .ok _ s' => .panic s' | .panic _ => .abort | .abort => .abort | .ub => .ub) := by
  rw [bind_apply]
  unfold onUnwind
  rw [assert_neg h]
  dsimp only
  cases m s <;> rfl

theorem debugAssert_bind {dbg : Bool} {p : Prop} [Decidable p] (h : p) (f : Unit → Exec σ β) (s : σ) :
    ((debugAssert dbg p : Exec σ Unit) >>= f) s = f () s := bind_ok (debugAssert_pos h s)

theorem debugAssert_off {p : Prop} [Decidable p] (s : σ) :
    (debugAssert false p : Exec σ Unit) s = .ok () s := by simp [debugAssert]

theorem debugAssert_neg {p : Prop} [Decidable p] (h : ¬ p) (s : σ) :
    (debugAssert true p : Exec σ Unit) s = .panic s := by simp [debugAssert, h]

theorem debugAssert_cases (dbg : Bool) (p : Prop) [Decidable p] (s : σ) :
    (debugAssert dbg p : Exec σ Unit) s = .ok () s ∨ ((debugAssert dbg p : Exec σ Unit) s = .panic s ∧ dbg = true ∧ ¬ p) := by
  by_cases h : dbg = true ∧ ¬ p
  · exact .inr ⟨by simp [debugAssert, h], h⟩
  · exact .inl (by simp only [debugAssert]; rw [if_neg h])

theorem bind_assoc_apply {γ : Type} (m : Exec σ α) (f : α → Exec σ β) (g : β → Exec σ γ) (s : σ) :
    ((m >>= f) >>= g) s = (m >>= fun a => f a >>= g) s := by
  rw [bind_apply, bind_apply, bind_apply]
  cases m s <;> rfl

end Exec
end Verif
