import Verif.Proofs.Several

/-!
# Programs that use several vectors: the three implementations
-/

namespace Verif
section
variable {V : Type} {T : UTy} {A : ATy} {β : Type} {c : Cfg} {sz al : Nat}

/-- What is known about using any emplacable, for a given value. -/
theorem given_meets {x : Val T β} {env : Env (Val T β)} {ds : List (Val T β)} {r : Res (List (Val T β) × V) Unit}
    {Q : Val T β → V → Prop} {B : V → Prop} {N R : T.Meta → Prop} {S : Prop} (hn : N x.md → S) (hr : R x.md → S)
    (h : r.Meets (fun _ st => ∃ y : Val T β, y.WF c ∧ Emplacable.Runs (given env x) ds y (.ok () st.1) ∧ Q y st.2)
      (fun st => (B st.2 ∧ (Emplacable.Unwinds (given env x) ds st.1 ∨ ∃ md, Emplacable.Announces (given env x) ds md st.1 ∧ N md)) ∨
        ∃ y : Val T β, y.WF c ∧ Emplacable.Runs (given env x) ds y (.panic st.1) ∧ Q y st.2)
      ((∃ md s1, Emplacable.Announces (given env x) ds md s1 ∧ R md) ∨ Emplacable.Aborts (given env x) ds)) :
    r.Meets (fun _ st => st.1 = ds ∧ Q x st.2) (fun st => st.1 = ds ∧ B st.2 ∧ S) S := by
  refine h.mono ?_ ?_ ?_
  · rintro _ ⟨ds', a'⟩ ⟨y, _, h1, h2⟩
    obtain ⟨rfl, h3⟩ := given_runs h1
    cases h3
    exact ⟨rfl, h2⟩
  · rintro ⟨ds', a'⟩ (⟨h1, h2 | ⟨md, ⟨st, h2, rfl⟩, h3⟩⟩ | ⟨y, _, h1, _⟩)
    · exact (given_no_unwind h2).elim
    · cases h2
      exact ⟨rfl, h1, hn h3⟩
    · obtain ⟨_, h3⟩ := given_runs h1; cases h3
  · rintro (⟨md, s1, ⟨st, h1, rfl⟩, h2⟩ | h1)
    · cases h1
      exact hr h2
    · exact (given_no_abort h1).elim

variable [Inhabited β]

/-- Dynamically aligned elements. -/
def UVec.mover (G : Prop) (c : Cfg) (T : UTy) : Mover (UVec.client (β := β) G c T) where
  lay x := ⟨x.size, x.align⟩
  left xs := xs
  wf h := h.wf
  pop env h := by
    obtain ⟨e, h1, _⟩ := (C02_popInto_unaligned h env (τ := Unit)).2 _ _ rfl
    refine ⟨e, h1, fun {τ} m t => ?_⟩
    obtain ⟨e', h2, h3⟩ := (C02_popInto_unaligned h env (τ := τ)).2 _ _ rfl
    rw [h1] at h2
    cases h2
    exact h3 m t
  remove {b ys i env} h hi hc τ m t := by
    have h1 := C05_removeInto_unaligned_partial h env hi (hc.1 (by simp) hi) m t
    rw [← List.eraseIdx_eq_take_drop_succ] at h1
    exact h1
  push {a xs env x} ds h he hx hc := by
    have h1 := C04_pushWith_unaligned_partial h he.1 he.2 (given_sound hx env ds) (fun md s1 h2 => by
      obtain ⟨st, h2, rfl⟩ := h2
      cases h2
      exact hc)
    refine given_meets (c := c) (Q := fun y v' => v'.Represents G c (xs ++ [y]) ∧ v'.drops = a.drops)
      (B := fun v' => v'.Represents G c xs ∧ v'.drops = a.drops)
      (N := fun md => env.Refuses (xs.length + 1) (a.request xs (T.sizeOf md) (T.alignOf md)) ∨ a.TooLarge c xs 1 (T.sizeOf md) (T.alignOf md))
      ?_ ?_ (h1.mono (fun _ _ h => h) ?_ (fun h => h))
    · rintro (h2 | h2)
      · exact .inl ⟨_, _, h2⟩
      · exact .inr h2
    · exact fun h2 => .inl ⟨_, _, h2⟩
    · rintro st (⟨h2, h3, h4⟩ | h2)
      · exact .inl ⟨⟨h2, h3⟩, h4⟩
      · exact .inr h2
  insert {a xs env x i} ds h he hx hc hi := by
    have h1 := C04_insertWith_unaligned_partial h he.1 he.2 (given_sound hx env ds) (fun md s1 h2 => by
      obtain ⟨st, h2, rfl⟩ := h2
      cases h2
      exact hc.1) hi (fun md s1 h2 => by
      obtain ⟨st, h2, rfl⟩ := h2
      cases h2
      exact hc.2 hi)
    refine given_meets (c := c) (Q := fun y v' => v'.Represents G c (xs.take i ++ y :: xs.drop i) ∧ v'.drops = a.drops)
      (B := fun v' => v'.Represents G c xs ∧ v'.drops = a.drops)
      (N := fun md => env.Refuses (xs.length + 1) (a.request xs (T.sizeOf md) (T.alignOf md)) ∨ a.TooLarge c xs 1 (T.sizeOf md) (T.alignOf md))
      ?_ ?_ (h1.mono (fun _ _ h => h) ?_ (fun h => h))
    · rintro (h2 | h2)
      · exact .inl ⟨_, _, h2⟩
      · exact .inr h2
    · exact fun h2 => .inl ⟨_, _, h2⟩
    · rintro st (⟨h2, h3, h4⟩ | h2)
      · exact .inl ⟨⟨h2, h3⟩, h4⟩
      · exact .inr h2

/-- Statically aligned elements. The layout that is announced has `ALIGN` for its alignment; the vector does not look at it. -/
def AVec.mover (hA : A.Lawful c) : Mover (AVec.client (β := β) hA) where
  lay x := ⟨x.size, A.ALIGN⟩
  left xs := xs
  wf h := h.wf
  pop env h := by
    obtain ⟨e, h1, _⟩ := (C02_popInto_aligned hA.fits h env (τ := Unit)).2 _ _ rfl
    refine ⟨e, h1, fun {τ} m t => ?_⟩
    obtain ⟨e', h2, h3⟩ := (C02_popInto_aligned hA.fits h env (τ := τ)).2 _ _ rfl
    rw [h1] at h2
    cases h2
    exact h3 m t
  remove {b ys i env} h hi hc τ m t := by
    have h1 := C05_removeInto_aligned hA.fits h env hi m t
    rw [← List.eraseIdx_eq_take_drop_succ] at h1
    exact h1
  push {a xs env x} ds h he hx hc := by
    have h1 := C04_pushWith_aligned hA h he (given_sound hx env ds)
    refine given_meets (c := c) (Q := fun y v' => v'.Holds c (xs ++ [y]) ∧ v'.drops = a.drops)
      (B := fun v' => v'.Holds c xs ∧ v'.drops = a.drops)
      (N := fun md => env.Refuses (xs.length + 1) (a.request (A.ty.sizeOf md)) ∨ a.TooLarge c xs 1 (A.ty.sizeOf md))
      ?_ ?_ (h1.mono (fun _ _ h => h) ?_ (fun h => h))
    · rintro (h2 | h2)
      · exact .inl ⟨_, _, h2⟩
      · exact .inr h2
    · exact fun h2 => .inl ⟨_, _, h2⟩
    · rintro st (⟨h2, h3, h4⟩ | h2)
      · exact .inl ⟨⟨h2, h3⟩, h4⟩
      · exact .inr h2
  insert {a xs env x i} ds h he hx hc hi := by
    have h1 := C04_insertWith_aligned hA h he (given_sound hx env ds) hi
    refine given_meets (c := c) (Q := fun y v' => v'.Holds c (xs.take i ++ y :: xs.drop i) ∧ v'.drops = a.drops)
      (B := fun v' => v'.Holds c xs ∧ v'.drops = a.drops)
      (N := fun md => env.Refuses (xs.length + 1) (a.request (A.ty.sizeOf md)) ∨ a.TooLarge c xs 1 (A.ty.sizeOf md))
      ?_ ?_ (h1.mono (fun _ _ h => h) ?_ (fun h => h))
    · rintro (h2 | h2)
      · exact .inl ⟨_, _, h2⟩
      · exact .inr h2
    · exact fun h2 => .inl ⟨_, _, h2⟩
    · rintro st (⟨h2, h3, h4⟩ | h2)
      · exact .inl ⟨⟨h2, h3⟩, h4⟩
      · exact .inr h2

/-- Sized elements. If the user of the result of `remove_into` unwinds, the last element is lost (C26). -/
def SVec.mover : Mover (SVec.client (β := β) (c := c) (sz := sz) (al := al)) where
  lay x := ⟨x.size, x.align⟩
  left xs := xs.dropLast
  wf h := h.wf
  pop env h := by
    obtain ⟨e, h1, _⟩ := (C02_popInto_sized h env (τ := Unit)).2 _ _ rfl
    refine ⟨e, h1, fun {τ} m t => ?_⟩
    obtain ⟨e', h2, h3⟩ := (C02_popInto_sized h env (τ := τ)).2 _ _ rfl
    rw [h1] at h2
    cases h2
    exact h3 m t
  remove {b ys i env} h hi hc τ m t := by
    have h1 := C05_removeInto_sized h env hi m t
    rw [← List.eraseIdx_eq_take_drop_succ] at h1
    exact h1
  push {a xs env x} ds h he hx hc := by
    have h1 := C04_pushWith_sized h env (given_sound hx env ds)
    refine given_meets (c := c) (Q := fun y v' => v'.Holds c (xs ++ [y]) ∧ v'.drops = a.drops)
      (B := fun v' => v'.Holds c xs ∧ v'.drops = a.drops) (N := fun _ => a.NoSlot c env) (fun h => h) (fun h => h)
      (h1.mono (fun _ _ h => h) ?_ (fun h => h))
    rintro st (⟨h2, h3, h4⟩ | h2)
    · exact .inl ⟨⟨h2, h3⟩, h4⟩
    · exact .inr h2
  insert {a xs env x i} ds h he hx hc hi := by
    have h1 := C04_insertWith_sized h env (given_sound hx env ds) hi
    refine given_meets (c := c) (Q := fun y v' => v'.Holds c (xs.take i ++ y :: xs.drop i) ∧ v'.drops = a.drops)
      (B := fun v' => v'.Holds c xs ∧ v'.drops = a.drops) (N := fun _ => a.NoSlot c env) (fun h => h) (fun h => h)
      (h1.mono (fun _ _ h => h) ?_ (fun h => h))
    rintro st (⟨h2, h3, h4⟩ | h2)
    · exact .inl ⟨⟨h2, h3⟩, h4⟩
    · exact .inr h2

end
end Verif
