import Verif.Spec.Reserve
import Verif.Proofs.Impl

/-!
# All the reservation methods
-/

namespace Verif
variable {V : Type} {T : UTy} {β : Type}

namespace Impl
variable {c : Cfg} {P : Provider V T β} (I : Impl c P) {v : V} {xs : List (Val T β)}

/-- The effect of a successful reservation. -/
structure Served (v v' : V) (xs : List (Val T β)) (n b al : Nat) : Prop where
  holds : I.H v' xs
  drops : I.drops v' = I.drops v
  recs : xs.length + n ≤ P.capacity v'
  recsMono : P.capacity v ≤ P.capacity v'
  room : I.width v' xs + b ≤ I.bcap v'
  bytesMono : I.bcap v ≤ I.bcap v'
  alignMono : P.align v ≤ P.align v'
  alignCases : P.align v' = max (P.align v) al ∨ P.align v' = P.align v
  fits : I.guard v b al → I.fits v' al

theorem Enlarged.served {env : Env (Val T β)} {v' : V} {n b al : Nat} (h : I.Enlarged env v v' xs n b al) :
    I.Served v v' xs n b al :=
  ⟨h.holds, h.drops, h.recs, h.recsMono, h.room, h.bytesMono, h.alignMono, h.alignCases, h.fits b (Nat.le_refl _)⟩

theorem Served.roomy {v' : V} {n b al : Nat} (h : I.Served v v' xs n b al) : Reservation.Roomy P v' n b :=
  ⟨by rw [I.len_eq h.holds]; exact h.recs, _, _, I.byteLen_eq h.holds, I.byteCap_eq v', h.room⟩

theorem Kept.same {v' : V} (h0 : I.H v xs) (h : I.Kept v v' xs) : Reservation.SameBytes P v v' :=
  ⟨by rw [I.byteLen_eq h.holds, I.byteLen_eq h0, h.width], by rw [I.byteCap_eq, I.byteCap_eq, h.bytes], h.align⟩

/-- Bytes that a reservation asks the allocator for, on top of the byte capacity. -/
def ask (v : V) (xs : List (Val T β)) : Reservation → Nat
  | .exactCapBytes _ b | .exactCapBytesAlign _ b _ => b
  | q => q.bytes - I.unused v xs

/-- The environment refuses the reservation. -/
def Denied (env : Env (Val T β)) (v : V) (xs : List (Val T β)) (q : Reservation) : Prop :=
  env.Refuses (xs.length + q.slots) (I.request v xs (I.ask v xs q) q.align)

/-- Why a reservation fails. -/
def Failing (env : Env (Val T β)) (v : V) (xs : List (Val T β)) (q : Reservation) : Prop :=
  I.Denied env v xs q ∨ I.maxLen < xs.length + q.slots ∨ I.tooBig v xs (I.ask v xs q) q.align

/-- The outcome of a `try_` method. -/
def Tried (env : Env (Val T β)) (v : V) (xs : List (Val T β)) (q : Reservation) (r : Except TRE Unit) (v' : V) : Prop :=
  (r = .ok () ∧ I.Served v v' xs q.slots q.bytes q.align) ∨
    ∃ e, r = .error e ∧ I.Kept v v' xs ∧ I.Failing env v xs q ∧ (e = .allocError → I.Denied env v xs q)

theorem elems_tried (hone : ∀ {v xs}, I.H v xs → I.fits v 1) (h : I.H v xs) (env : Env (Val T β)) {q : Reservation} (n : Nat)
    (hn : q.slots = n) (hb : q.bytes = 0) (ha : q.align = 1) :
    (P.tryReserve env n v).Meets (I.Tried env v xs q) (fun _ => False) False := by
  rcases I.tryReserve h env n with ⟨v1, h1, hH, hd, hw, hbc, hali, hblk, hrec, hmono, hid, hrq, htb, hfit, _⟩ | ⟨e, h1, hwhy, _⟩
  · refine .of_ok h1 (.inl ⟨rfl, hH, hd, by omega, hmono, ?_, by omega, by omega, .inr hali, ?_⟩)
    · have := I.width_le hH; omega
    · rw [ha, hb]
      exact fun _ => (hfit 1).mpr (hone h)
  · refine .of_ok h1 (.inr ⟨e, rfl, .refl I h, ?_, ?_⟩)
    · rcases hwhy with ⟨_, h2⟩ | hm
      · exact .inr (.inl (by omega))
      · exact .inl (.inl ⟨_, by rw [hn]; exact hm⟩)
    · rintro rfl
      rcases hwhy with ⟨h2, _⟩ | hm
      · cases h2
      · exact .inl ⟨_, by rw [hn]; exact hm⟩

theorem exact_tried (h : I.H v xs) {env : Env (Val T β)} (he : I.EnvOk env) {q : Reservation} (n b al : Nat)
    (hn : q.slots = n) (hb : q.bytes = b) (ha : q.align = al) (hk : I.ask v xs q = b) (hal : IsAlign c al) :
    (Api.tryReserveExactCapacityBytesAlign P env n b al v).Meets (I.Tried env v xs q) (fun _ => False) False := by
  unfold Api.tryReserveExactCapacityBytesAlign
  subst hn hb ha
  rcases I.tryReserve h env q.slots with ⟨v1, h1, hH, hd, hw, hbc, hali, hblk, hrec, hmono, hid, hrq, htb, hfit, _⟩ | ⟨e, h1, hwhy, _⟩
  rotate_left
  · rw [Exec.bind_ok h1]
    refine .inr ⟨e, rfl, .refl I h, ?_, ?_⟩
    · rcases hwhy with ⟨_, h2⟩ | hm
      · exact .inr (.inl h2)
      · exact .inl (.inl ⟨_, hm⟩)
    · rintro rfl
      rcases hwhy with ⟨h2, _⟩ | hm
      · cases h2
      · exact .inl ⟨_, hm⟩
  rw [Exec.bind_ok h1]
  dsimp only
  unfold Api.toAlign
  rw [I.alignNew hal]
  dsimp only
  rw [Exec.pure_bind_apply]
  rcases I.addBytes hH he hal q.bytes with ⟨v2, h2, hH2, hd2, hsp2, hm2, hc2, hid2, ht2, ha2, hac2, hf2, _⟩ | ⟨e, h2, hwhy, _⟩
  · refine .of_ok h2 (.inl ⟨rfl, hH2, by rw [hd2, hd], by omega, by omega, ?_, by omega, by omega, by rw [← hali]; exact hac2, ?_⟩)
    · have := I.width_le h; omega
    · intro hg
      rcases hf2 with hf2 | ⟨h8, h9⟩
      · exact hf2
      · have := I.width_le h
        exact h9 ((hfit _).mpr (hg (by omega) (by omega)))
  · refine .of_ok h2 (.inr ⟨e, rfl, ⟨hH, hd, hmono, hw, hbc, hali, hblk⟩, ?_, ?_⟩)
    · rcases hwhy with ⟨_, h3⟩ | ⟨_, hl⟩
      · exact .inr (.inr (by rw [hk]; exact htb _ _ h3))
      · exact .inl (.inr (by rw [hk, ← hrq]; exact hl))
    · rintro rfl
      rcases hwhy with ⟨h4, _⟩ | ⟨_, hl⟩
      · cases h4
      · exact .inr (by rw [hk, ← hrq]; exact hl)

theorem capBytes_tried (h : I.H v xs) {env : Env (Val T β)} (he : I.EnvOk env) {q : Reservation} (n b al : Nat)
    (hn : q.slots = n) (hb : q.bytes = b) (ha : q.align = al) (hk : I.ask v xs q = b - I.unused v xs) (hal : IsAlign c al) :
    (Api.tryReserveCapacityBytesAlign c P env n b al v).Meets (I.Tried env v xs q)
      (fun v' => c.debug = true ∧ I.Kept v v' xs ∧ I.Failing env v xs q) False := by
  subst hn hb ha
  have hF : I.Fails env v xs q.slots q.bytes q.align → I.Failing env v xs q := by
    unfold Fails Failing Refused Denied
    rw [hk]; exact id
  have hD : I.Refused env v xs q.slots q.bytes q.align → I.Denied env v xs q := by
    unfold Refused Denied
    rw [hk]; exact id
  refine (I.tryReserveCapacityBytesAlign_meets h he q.slots q.bytes hal).mono ?_ (fun v' h => ⟨h.1, h.2.1, hF h.2.2⟩) id
  rintro r v' (⟨h1, h2⟩ | ⟨e, h1, h2, h3, h4⟩)
  · exact .inl ⟨h1, h2.served⟩
  · exact .inr ⟨e, h1, h2, hF h3, fun h => hD (h4 h)⟩

/-- Every `try_` method. -/
theorem attempt_meets (hex : P.tryReserveExact = P.tryReserve) (hone : ∀ {v xs}, I.H v xs → I.fits v 1)
    (h1 : IsAlign c 1) (h : I.H v xs) {env : Env (Val T β)} (he : I.EnvOk env) (q : Reservation) (hal : IsAlign c q.align) :
    (q.attempt c P env v).Meets (I.Tried env v xs q) (fun v' => (c.debug = true ∧ q.Asserts) ∧ I.Kept v v' xs ∧ I.Failing env v xs q)
      False := by
  cases q with
  | elems n => exact (I.elems_tried hone h env n rfl rfl rfl).mono (fun _ _ h => h) (fun _ h => h.elim) id
  | capBytes n b => exact (I.capBytes_tried h he n b 1 rfl rfl rfl rfl h1).mono (fun _ _ h => h) (fun _ h => ⟨⟨h.1, trivial⟩, h.2⟩) id
  | capBytesAlign n b al => exact (I.capBytes_tried h he n b al rfl rfl rfl rfl hal).mono (fun _ _ h => h) (fun _ h => ⟨⟨h.1, trivial⟩, h.2⟩) id
  | exact n =>
    show (P.tryReserveExact env n v).Meets _ _ _
    rw [hex]
    exact (I.elems_tried hone h env n rfl rfl rfl).mono (fun _ _ h => h) (fun _ h => h.elim) id
  | exactCapBytes n b => exact (I.exact_tried h he n b 1 rfl rfl rfl rfl h1).mono (fun _ _ h => h) (fun _ h => h.elim) id
  | exactCapBytesAlign n b al =>
    exact (I.exact_tried h he n b al rfl rfl rfl rfl hal).mono (fun _ _ h => h) (fun _ h => h.elim) id

theorem unwrap_meets {env : Env (Val T β)} {q : Reservation} {m : Exec V (Except TRE Unit)}
    (h : (m v).Meets (I.Tried env v xs q) (fun v' => (c.debug = true ∧ q.Asserts) ∧ I.Kept v v' xs ∧ I.Failing env v xs q) False) :
    ((do let r ← m; unwrapReserve r) v).Meets (fun _ v' => I.Served v v' xs q.slots q.bytes q.align)
      (fun v' => I.Kept v v' xs ∧ I.Failing env v xs q) (I.Denied env v xs q) := by
  refine (h.mono (fun _ _ h => h) (fun _ h => h.2) False.elim).bind ?_
  rintro r v1 (⟨rfl, hE⟩ | ⟨e, rfl, hK, hF, hA⟩)
  · exact hE
  · cases e with
    | capacityOverflow => exact ⟨hK, hF⟩
    | allocError => exact hA rfl

/-- Every method without `try_`. -/
theorem run_reserve_meets (hex : P.tryReserveExact = P.tryReserve) (hone : ∀ {v xs}, I.H v xs → I.fits v 1)
    (h1 : IsAlign c 1) (h : I.H v xs) {env : Env (Val T β)} (he : I.EnvOk env) (q : Reservation) (hal : IsAlign c q.align) :
    (q.run c P env v).Meets (fun _ v' => I.Served v v' xs q.slots q.bytes q.align)
      (fun v' => I.Kept v v' xs ∧ I.Failing env v xs q) (I.Denied env v xs q) := by
  have key := I.attempt_meets hex hone h1 h he q hal
  cases q with
  | elems n => exact I.unwrap_meets key
  | capBytes n b => exact I.unwrap_meets key
  | capBytesAlign n b al => exact I.unwrap_meets key
  | exact n =>
    have := I.exact_tried (q := .exact n) h he n 0 1 rfl rfl rfl (Nat.zero_sub _) h1
    exact I.unwrap_meets (this.mono (fun _ _ h => h) (fun _ h => h.elim) id)
  | exactCapBytes n b => exact I.unwrap_meets key
  | exactCapBytesAlign n b al => exact I.unwrap_meets key

end Impl
end Verif
