import Verif.Proofs.CostRules

/-!
# What the calls cost: the code that the three implementations share
-/

namespace Verif
open Exec

variable {V : Type} {T : UTy} {β : Type}

/-- What `reserve_capacity_bytes_align` costs, given what the two reservations of an implementation cost. -/
theorem reserve_meters {c : Cfg} {P : Provider (V × Nat) T β} {env : Env (Val T β)} {n b al : Nat} {v : V} {S : V → Nat → Prop}
    {G : V → V → Nat → Prop} {Bs Bw Bg : Nat} (hal : P.alignNew al = some al)
    (hT : (P.tryReserve env n).Meters v (fun r t d => (∀ e, r = .error e → t = v ∧ d = 0) ∧ (r = .ok () → S t d)) (fun _ => False))
    (hS : ∀ u d, S u d → d ≤ Bs)
    (hB : ∀ u d k, S u d → (P.tryReserveAdditionalBytesAlign env k al).Meters u
      (fun r t d => (∀ e, r = .error e → t = u ∧ d ≤ Bw) ∧ (r = .ok () → G u t d)) (fun d => d ≤ Bg))
    (hG : ∀ u d t d', S u d → G u t d' → d' ≤ Bg) (hw : Bw ≤ Bg) :
    (Api.reserveCapacityBytesAlign c P env n b al).Meters v
      (fun _ t d => ∃ u d1 d2 d3, S u d1 ∧ d2 ≤ Bw ∧ G u t d3 ∧ d = d1 + d2 + d3) (fun d => d ≤ Bs + Bw + Bg) := by
  unfold Api.reserveCapacityBytesAlign
  suffices h : (Api.tryReserveCapacityBytesAlign c P env n b al).Meters v
      (fun r t d => (∀ e, r = .error e → d ≤ Bs + Bw + Bg) ∧
        (r = .ok () → ∃ u d1 d2 d3, S u d1 ∧ d2 ≤ Bw ∧ G u t d3 ∧ d = d1 + d2 + d3)) (fun d => d ≤ Bs + Bw + Bg) by
    refine .bind (h.mono ?_ fun _ h => h)
    rintro r t d ⟨h1, h2⟩
    exact .unwrap (fun e => by simpa using h2 e) (fun e => by simpa using h1 _ e)
  unfold Api.tryReserveCapacityBytesAlign Api.tryReserve
  refine .bind (hT.mono ?_ fun _ h => h.elim)
  rintro r u d1 ⟨h1, h2⟩
  match r with
  | .error e =>
    obtain ⟨_, rfl⟩ := h1 e rfl
    exact .pure ⟨fun _ _ => by omega, nofun⟩
  | .ok () =>
    have hu := h2 rfl
    have hu' := hS _ _ hu
    have need : ∀ k d2, d2 ≤ Bw → (Api.reserveNeeded c P env b k al).Meters u
        (fun r t d => (∀ e, r = .error e → d1 + (d2 + d) ≤ Bs + Bw + Bg) ∧
          (r = .ok () → ∃ u d1' d2' d3, S u d1' ∧ d2' ≤ Bw ∧ G u t d3 ∧ d1 + (d2 + d) = d1' + d2' + d3))
        (fun d => d1 + (d2 + d) ≤ Bs + Bw + Bg) := by
      intro k d2 hd2
      unfold Api.reserveNeeded Api.byteCapAssert
      refine .bind ((hB u d1 k hu).mono ?_ fun _ h => by omega)
      rintro r t d ⟨e1, e2⟩
      have hd : d ≤ Bg := by
        match r with
        | .error e => have := (e1 e rfl).2; omega
        | .ok () => exact hG _ _ _ _ hu (e2 rfl)
      refine .bind (Q' := _) (Exec.Meters.get_bind fun _ => .orUb_bind fun _ _ => .orUb_bind fun _ _ => .debugAssert_last (by omega) (.pure ⟨fun _ _ => by omega, fun hr => ?_⟩))
      exact ⟨u, d1, d2, d, hu, hd2, e2 hr, by omega⟩
    refine .get_bind fun _ => .debugAssert_bind (by omega) ?_
    have ht : (Api.toAlign P al) = (Pure.pure al : Exec (V × Nat) Nat) := by unfold Api.toAlign; rw [hal]
    rw [ht]
    refine .bind (.pure (.orUb_bind fun _ _ => .orUb_bind fun _ _ => .ite (fun _ => ?_) (fun _ => ?_)))
    · refine .bind ((hB u d1 _ hu).mono ?_ fun _ h => by omega)
      rintro r t d ⟨e1, e2⟩
      match r with
      | .ok () =>
        exact .pure ⟨nofun, fun _ => ⟨u, d1, 0, d, hu, by omega, e2 rfl, by omega⟩⟩
      | .error e =>
        obtain ⟨rfl, hd⟩ := e1 e rfl
        refine (need _ d hd).mono ?_ fun _ h => by omega
        rintro r t k ⟨h3, h4⟩
        exact ⟨fun e he => by have := h3 e he; omega, by simpa only [Nat.zero_add] using h4⟩
    · refine (need _ 0 (Nat.zero_le _)).mono ?_ fun _ h => by omega
      rintro r t k ⟨h3, h4⟩
      exact ⟨fun e he => by have := h3 e he; omega, by simpa only [Nat.zero_add] using h4⟩

/-! ## Taking a value out -/

/-- The inner closure called with a pointer, seen from the side of the source. -/
def writing {σ : Type} (w : σ → WriteRes σ β) : Exec σ (List β) := fun s =>
  match w s with
  | .done bs s => .ok bs s
  | .unwind _ s => .panic s
  | .abort => .abort
  | .ub => .ub

theorem onLeft_take {σ : Type} (e : Exec σ (Started σ T β)) :
    onLeft none (run e (Dst.code .take)) = (do
      let st ← e
      let bs ← writing st.write
      st.finish
      pure (some ⟨st.md, bs⟩) : Exec σ (Option (Val T β))) := by
  funext s
  unfold onLeft run Dst.code
  simp only [Exec.bind_apply, liftL, liftR, Exec.pure_apply]
  cases e s with
  | ok st s1 =>
    simp only [placeInto, writing]
    cases st.write s1 with
    | done bs s2 =>
      simp only [liftR, Exec.set_apply]
      cases st.finish s2 <;> rfl
    | unwind bs s2 => rfl
    | abort => rfl
    | ub => rfl
  | panic s1 => rfl
  | abort => rfl
  | ub => rfl

theorem onLeft_drop {σ : Type} (e : Exec σ (Started σ T β)) :
    onLeft none (run e (Dst.code .drop)) = (do
      let st ← e
      st.dropVal
      st.finish
      pure none : Exec σ (Option (Val T β))) := by
  funext s
  unfold onLeft run Dst.code Sink.dropping
  simp only [Exec.bind_apply, liftL, liftR, Exec.pure_apply]
  cases e s with
  | ok st s1 =>
    dsimp only
    cases st.dropVal s1 with
    | ok u s2 =>
      dsimp only
      cases st.finish s2 <;> rfl
    | panic s2 => rfl
    | abort => rfl
    | ub => rfl
  | panic s1 => rfl
  | abort => rfl
  | ub => rfl

theorem onLeft_forget {σ : Type} (e : Exec σ (Started σ T β)) :
    onLeft none (run e (Dst.code .forget)) = (do
      let st ← e
      st.finish
      pure none : Exec σ (Option (Val T β))) := by
  funext s
  unfold onLeft run Dst.code Sink.forgetting
  simp only [Exec.bind_apply, liftL, liftR, Exec.pure_apply]
  cases e s with
  | ok st s1 =>
    dsimp only
    cases st.finish s1 <;> rfl
  | panic s1 => rfl
  | abort => rfl
  | ub => rfl

theorem onLeft_panics {σ : Type} (e : Exec σ (Started σ T β)) :
    onLeft none (run e (Dst.code .panics)) = (do
      let _ ← e
      Exec.panic : Exec σ (Option (Val T β))) := by
  funext s
  unfold onLeft run Dst.code
  simp only [Exec.bind_apply, liftL, liftR]
  cases e s <;> rfl

/-- What a started removal costs from here on. -/
structure Started.Ends (st : Started (V × Nat) T β) (t : V) (B : Nat) : Prop where
  taken : (writing st.write).Meters t (fun _ u j => st.finish.Meters u (fun _ _ f => j + f ≤ B) (fun f => j + f ≤ B)) (fun j => j ≤ B)
  dropped : st.dropVal.Meters t (fun _ u j => st.finish.Meters u (fun _ _ f => j + f ≤ B) (fun f => j + f ≤ B)) (fun j => j ≤ B)
  forgotten : st.finish.Meters t (fun _ _ f => f ≤ B) (fun f => f ≤ B)

theorem Started.Ends.mono {st : Started (V × Nat) T β} {t : V} {B C : Nat} (h : st.Ends t B) (hBC : B ≤ C) : st.Ends t C where
  taken := h.taken.mono (fun _ _ _ h => h.mono (fun _ _ _ h => Nat.le_trans h hBC) fun _ h => Nat.le_trans h hBC) fun _ h => Nat.le_trans h hBC
  dropped := h.dropped.mono (fun _ _ _ h => h.mono (fun _ _ _ h => Nat.le_trans h hBC) fun _ h => Nat.le_trans h hBC) fun _ h => Nat.le_trans h hBC
  forgotten := h.forgotten.mono (fun _ _ _ h => Nat.le_trans h hBC) fun _ h => Nat.le_trans h hBC

theorem exchange_meters {e : Exec (V × Nat) (Started (V × Nat) T β)} {v : V} {B : Nat}
    (h : e.Meters v (fun st t d => d = 0 ∧ st.Ends t B) (fun d => d = 0)) (d : Dst) :
    (onLeft none (run e (Dst.code d))).Meters v (fun _ _ k => k ≤ B) (fun k => k ≤ B) := by
  cases d
  · rw [onLeft_take]
    refine .bind (h.mono ?_ fun _ h => by omega)
    rintro st t _ ⟨rfl, h1, -, -⟩
    refine .bind (h1.mono ?_ fun _ h => by omega)
    intro _ u j hf
    refine .bind (hf.mono ?_ fun _ h => by omega)
    intro _ _ f hf
    exact .pure (by omega)
  · rw [onLeft_drop]
    refine .bind (h.mono ?_ fun _ h => by omega)
    rintro st t _ ⟨rfl, -, h1, -⟩
    refine .bind (h1.mono ?_ fun _ h => by omega)
    intro _ u j hf
    refine .bind (hf.mono ?_ fun _ h => by omega)
    intro _ _ f hf
    exact .pure (by omega)
  · rw [onLeft_forget]
    refine .bind (h.mono ?_ fun _ h => by omega)
    rintro st t _ ⟨rfl, -, -, h1⟩
    refine .bind (h1.mono ?_ fun _ h => by omega)
    intro _ _ f hf
    exact .pure (by omega)
  · rw [onLeft_panics]
    refine .bind (h.mono ?_ fun _ h => by omega)
    rintro st t _ ⟨rfl, -⟩
    exact .panic (by omega)

/-! ## Putting a value in -/

theorem onRight_value_meters {M : Machine (V × Nat) T β} {env : Env (Val T β)} {x : Val T β} {m : Emplacer (V × Nat) T β} {v : V}
    {P : V → Nat → Prop} {R : Nat → Prop}
    (h : (m ⟨x.size, x.align⟩ x.md).Meters v (fun p t d => ∃ s cm rb, p = .place s cm rb ∧
      (s x.bytes >>= fun _ => cm).Meters t (fun _ u k => P u (d + k)) (fun k => R (d + k))) R) :
    (onRight M (run (Src.code env (.value x)) m)).Meters v (fun _ u d => P u d) R := by
  intro n
  have h := h n
  revert h
  unfold onRight run Src.code
  simp only [Exec.bind_apply, liftL, liftR, Exec.pure_apply]
  cases m ⟨x.size, x.align⟩ x.md (v, n) with
  | panic t => exact id
  | abort => exact id
  | ub => exact id
  | ok p t =>
    rintro ⟨d, h1, s, cm, rb, rfl, h2⟩
    obtain ⟨t, k⟩ := t
    dsimp only at h1 h2
    subst h1
    have h2 := h2 (n + d)
    revert h2
    simp only [Exec.bind_apply, placeInto, liftL, liftR, Exec.pure_apply]
    cases s x.bytes (t, n + d) with
    | panic t => rintro ⟨k, e1, e2⟩; exact ⟨d + k, by dsimp only [List.foldl_nil]; omega, e2⟩
    | abort => exact id
    | ub => exact id
    | ok _ t =>
      dsimp only
      cases cm t with
      | panic t => rintro ⟨k, e1, e2⟩; exact ⟨d + k, by dsimp only [List.foldl_nil]; omega, e2⟩
      | abort => exact id
      | ub => exact id
      | ok _ t => rintro ⟨k, e1, e2⟩; exact ⟨d + k, by dsimp only [List.foldl_nil]; omega, e2⟩

theorem giving_meters {M : Machine (V × Nat) T β} (hM : ∀ x s, (M.note x s).2 = s.2) {env : Env (Val T β)} {x : Val T β}
    {m : Exec (V × Nat) Unit} {v : V} {Q : Unit → V → Nat → Prop} {E : Nat → Prop} (h : m.Meters v Q E) :
    (M.giving env x m).Meters v Q E := by
  intro n
  have h := h n
  revert h
  unfold Machine.giving Exec.onUnwind Machine.dropArg
  cases m (v, n) with
  | ok a t => exact id
  | abort => exact id
  | ub => exact id
  | panic t =>
    rintro ⟨d, h1, h2⟩
    dsimp only
    rw [Exec.modify_bind]
    by_cases hp : env.dropPanics x = true
    · rw [if_pos hp]; trivial
    · rw [if_neg hp]; exact ⟨d, by rw [hM]; exact h1, h2⟩

end Verif
