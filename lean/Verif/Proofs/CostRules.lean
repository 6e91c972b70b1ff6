import Verif.Proofs.MeterInst

/-!
# What metered functions cost: the rules
-/

namespace Verif

/-- Started with the vector `s`, the function adds to the meter a number `d` with `Q a t d` if it returns `a` and leaves the vector `t`,
and a number `d` with `E d` if it panics. -/
def Exec.Meters {σ α : Type} (m : Exec (σ × Nat) α) (s : σ) (Q : α → σ → Nat → Prop) (E : Nat → Prop) : Prop :=
  ∀ n, match m (s, n) with
    | .ok a t => ∃ d, t.2 = n + d ∧ Q a t.1 d
    | .panic t => ∃ d, t.2 = n + d ∧ E d
    | .abort => True
    | .ub => True

namespace Exec.Meters
variable {σ τ α γ : Type} {s : σ} {Q : α → σ → Nat → Prop} {E : Nat → Prop} {Q' : γ → σ → Nat → Prop}

theorem mono {m : Exec (σ × Nat) α} {Q1 : α → σ → Nat → Prop} {E1 : Nat → Prop} (h : m.Meters s Q E)
    (hQ : ∀ a t d, Q a t d → Q1 a t d) (hE : ∀ d, E d → E1 d) : m.Meters s Q1 E1 := by
  intro n
  have := h n
  revert this
  cases m (s, n) <;> dsimp only
  · exact fun ⟨d, h1, h2⟩ => ⟨d, h1, hQ _ _ _ h2⟩
  · exact fun ⟨d, h1, h2⟩ => ⟨d, h1, hE _ h2⟩
  · exact id
  · exact id

theorem bind {m : Exec (σ × Nat) α} {f : α → Exec (σ × Nat) γ}
    (h : m.Meters s (fun a t d => (f a).Meters t (fun b u d' => Q' b u (d + d')) (fun d' => E (d + d'))) E) : (m >>= f).Meters s Q' E := by
  intro n
  have := h n
  revert this
  rw [Exec.bind_apply]
  cases m (s, n) <;> dsimp only
  · rename_i a t
    obtain ⟨t, k⟩ := t
    rintro ⟨d, rfl, h1⟩
    have := h1 (n + d)
    revert this
    dsimp only
    cases f a (t, n + d) <;> dsimp only
    · exact fun ⟨d', h2, h3⟩ => ⟨d + d', by omega, h3⟩
    · exact fun ⟨d', h2, h3⟩ => ⟨d + d', by omega, h3⟩
    · exact id
    · exact id
  · exact id
  · exact id
  · exact id

/-- Steps that cost nothing. -/
theorem pure {a : α} (h : Q a s 0) : (Pure.pure a : Exec (σ × Nat) α).Meters s Q E := fun _ => ⟨0, rfl, h⟩
theorem panic (h : E 0) : (Exec.panic : Exec (σ × Nat) α).Meters s Q E := fun _ => ⟨0, rfl, h⟩
theorem abort : (Exec.abort : Exec (σ × Nat) α).Meters s Q E := fun _ => trivial

theorem look_bind {f : σ → Exec (σ × Nat) γ} (h : (f s).Meters s Q' E) : (Meter.look >>= f).Meters s Q' E := fun n => h n

theorem get_bind {f : σ × Nat → Exec (σ × Nat) γ} (h : ∀ n, (f (s, n)).Meters s Q' E) : (Exec.get >>= f).Meters s Q' E := fun n => h n n

theorem orUb_bind {o : Option α} {f : α → Exec (σ × Nat) γ} (h : ∀ a, o = some a → (f a).Meters s Q' E) :
    (Exec.orUb o >>= f).Meters s Q' E := by
  cases o with
  | none => exact fun _ => trivial
  | some a => exact fun n => h a rfl n

theorem require_bind {p : Prop} [Decidable p] {f : Unit → Exec (σ × Nat) γ} (h : p → (f ()).Meters s Q' E) :
    (Exec.require p >>= f).Meters s Q' E := by
  intro n
  by_cases hp : p
  · rw [Exec.bind_ok (Exec.require_pos hp _)]; exact h hp n
  · rw [Exec.bind_ub (Exec.require_neg hp _)]; trivial

theorem assert_bind {p : Prop} [Decidable p] {f : Unit → Exec (σ × Nat) γ} (hE : E 0) (h : p → (f ()).Meters s Q' E) :
    (Exec.assert p >>= f).Meters s Q' E := by
  intro n
  by_cases hp : p
  · rw [Exec.bind_ok (Exec.assert_pos hp _)]; exact h hp n
  · rw [Exec.bind_panic (Exec.assert_neg hp _)]; exact ⟨0, rfl, hE⟩

theorem debugAssert_last {b : Bool} {p : Prop} [Decidable p] {Q : Unit → σ → Nat → Prop} (hE : E 0) (h : Q () s 0) :
    (Exec.debugAssert b p : Exec (σ × Nat) Unit).Meters s Q E := by
  intro n
  by_cases hp : b = true ∧ ¬ p
  · rw [show (Exec.debugAssert b p : Exec (σ × Nat) Unit) (s, n) = .panic (s, n) from if_pos hp]; exact ⟨0, rfl, hE⟩
  · rw [show (Exec.debugAssert b p : Exec (σ × Nat) Unit) (s, n) = .ok () (s, n) from if_neg hp]; exact ⟨0, rfl, h⟩

theorem debugAssert_bind {b : Bool} {p : Prop} [Decidable p] {f : Unit → Exec (σ × Nat) γ} (hE : E 0) (h : (f ()).Meters s Q' E) :
    (Exec.debugAssert b p >>= f).Meters s Q' E := by
  refine bind (debugAssert_last hE ?_)
  simpa using h

theorem lift {m : Exec σ α} (h : ∀ a t, m s = .ok a t → Q a t 0) (hE : ∀ t, m s = .panic t → E 0) :
    (liftL m : Exec (σ × Nat) α).Meters s Q E := by
  intro n
  unfold liftL
  dsimp only
  cases hm : m s <;> dsimp only
  · exact ⟨0, rfl, h _ _ hm⟩
  · exact ⟨0, rfl, hE _ hm⟩

theorem lift_bind {m : Exec σ α} {f : α → Exec (σ × Nat) γ} (h : ∀ a t, m s = .ok a t → (f a).Meters t Q' E)
    (hE : ∀ t, m s = .panic t → E 0) : (liftL m >>= f).Meters s Q' E := by
  refine bind (lift (fun a t e => ?_) hE)
  simpa using h a t e

theorem count_bind {n : Nat} {f : Unit → Exec (σ × Nat) γ} (h : (f ()).Meters s (fun a t d => Q' a t (n + d)) (fun d => E (n + d))) :
    (Meter.count n >>= f).Meters s Q' E := by
  intro k
  have := h (k + n)
  revert this
  show (match f () (s, k + n) with
    | .ok a t => _
    | .panic t => _
    | .abort => _
    | .ub => _) → (match f () (s, k + n) with
    | .ok a t => _
    | .panic t => _
    | .abort => _
    | .ub => _)
  cases f () (s, k + n) <;> dsimp only
  · exact fun ⟨d, h1, h2⟩ => ⟨n + d, by omega, h2⟩
  · exact fun ⟨d, h1, h2⟩ => ⟨n + d, by omega, h2⟩
  · exact id
  · exact id

theorem paying {n : Nat} {m : Exec σ α} (h : ∀ a t, m s = .ok a t → Q a t n) (hE : ∀ t, m s = .panic t → E n) :
    (Meter.paying n m).Meters s Q E := count_bind (lift (fun a t e => by simpa using h a t e) (fun t e => by simpa using hE t e))

theorem paying_bind {n : Nat} {m : Exec σ α} {f : α → Exec (σ × Nat) γ}
    (h : ∀ a t, m s = .ok a t → (f a).Meters t (fun b u d => Q' b u (n + d)) (fun d => E (n + d)))
    (hE : ∀ t, m s = .panic t → E n) : (Meter.paying n m >>= f).Meters s Q' E := bind (paying h hE)

theorem ite {p : Prop} [Decidable p] {m m' : Exec (σ × Nat) α} (h : p → m.Meters s Q E) (h' : ¬ p → m'.Meters s Q E) :
    (if p then m else m').Meters s Q E := by
  split
  · exact h ‹_›
  · exact h' ‹_›

/-- What is known about the function without the meter. -/
theorem over {m : Exec (σ × Nat) α} {m0 : Exec σ α} (h : m.Meters s Q E) (ho : m.Over Prod.fst Eq m0) :
    m.Meters s (fun a t d => Q a t d ∧ m0 s = .ok a t) (fun d => E d ∧ ∃ t, m0 s = .panic t) := by
  intro n
  have h1 := h n
  have h2 := ho (s, n)
  revert h1 h2
  dsimp only
  cases m (s, n) <;> cases m0 s <;> simp only [Res.Over, false_implies, implies_true]
  · rintro ⟨d, h1, h2⟩ ⟨rfl, rfl⟩; exact ⟨d, h1, h2, rfl⟩
  · rintro ⟨d, h1, h2⟩ rfl; exact ⟨d, h1, h2, _, rfl⟩

theorem unwrap {r : Except TRE Unit} {Q : Unit → σ → Nat → Prop} (h : r = .ok () → Q () s 0) (hE : r = .error .capacityOverflow → E 0) :
    (unwrapReserve r : Exec (σ × Nat) Unit).Meters s Q E := by
  match r with
  | .ok () => exact pure (h rfl)
  | .error .capacityOverflow => exact panic (hE rfl)
  | .error .allocError => exact abort

end Exec.Meters
end Verif
