import Verif.Proofs.BuildsApi

/-!
# Debug and release builds: vectors that hold a list
-/

namespace Verif
variable {V : Type} {T : UTy} {β : Type} {c : Cfg}

theorem Along.imp {M : Machine V T β} {H : V → List (Val T β) → Prop} {Q Q' : Env (Val T β) → Op T β → V → List (Val T β) → Prop}
    (hq : ∀ env op v xs, Q env op v xs → Q' env op v xs) :
    ∀ {ops : List (Env (Val T β) × Op T β)} {v : V} {s : Ideal T β}, Along c M H Q ops v s → Along c M H Q' ops v s
  | [], _, _, _ => trivial
  | (_, _) :: _, _, _, h => ⟨hq _ _ _ _ h.1, fun o v' s' hc ht ha => Along.imp hq (h.2 o v' s' hc ht ha)⟩

/-- Two computations that agree, or (if `X`) the first panics where the second ends the process. -/
def PanicOrAbort (X : Prop) {σ α : Type} (d r : Res σ α) : Prop := d = r ∨ (X ∧ r = .abort ∧ ∃ s, d = .panic s)

theorem PanicOrAbort.bind {X : Prop} {σ α γ : Type} {d r : Exec σ γ} {f g : γ → Exec σ α} {s : σ} (h : PanicOrAbort X (d s) (r s))
    (h' : ∀ a t, d s = .ok a t → f a t = g a t) : PanicOrAbort X ((d >>= f) s) ((r >>= g) s) := by
  rcases h with h | ⟨hX, h, t, h1⟩
  · refine .inl ?_
    cases hd : d s with
    | ok a t => rw [Exec.bind_ok hd, Exec.bind_ok (h.symm.trans hd)]; exact h' a t hd
    | panic t => rw [Exec.bind_panic hd, Exec.bind_panic (h.symm.trans hd)]
    | abort => rw [Exec.bind_abort hd, Exec.bind_abort (h.symm.trans hd)]
    | ub => rw [Exec.bind_ub hd, Exec.bind_ub (h.symm.trans hd)]
  · exact .inr ⟨hX, Exec.bind_abort h, t, Exec.bind_panic h1⟩

/-! ## The implementations for unsized types -/

namespace Impl
variable {D R : Provider V T β} (I : Impl c.checked D) {v : V} {xs : List (Val T β)}

/-- The debug build of a reservation differs only where the reservation fails. -/
theorem attempt_builds (hb : D.Builds R) (h : I.H v xs) {env : Env (Val T β)} (he : I.EnvOk env) (n b : Nat) {al : Nat}
    (hal : IsAlign c.checked al) :
    Api.tryReserveCapacityBytesAlign c.checked D env n b al v = Api.tryReserveCapacityBytesAlign c.release R env n b al v ∨
      ∃ e v', Api.tryReserveCapacityBytesAlign c.release R env n b al v = .ok (.error e) v' ∧
        Api.tryReserveCapacityBytesAlign c.checked D env n b al v = .panic v' := by
  unfold Api.tryReserveCapacityBytesAlign Api.tryReserve
  rw [← hb.tryReserve]
  rcases I.tryReserve h env n with ⟨v1, h1, hH, hd, hw, hbc, hali, hblk, hrec, hmono, hid, hrq, htb, hfit, hroo⟩ | ⟨e, h1, hwhy, _⟩
  rotate_left
  · rw [Exec.bind_ok h1, Exec.bind_ok h1]
    exact .inl rfl
  rw [Exec.bind_ok h1, Exec.bind_ok h1]
  dsimp only
  rw [Exec.get_bind, Exec.get_bind, Exec.debugAssert_bind (by rw [I.len_eq hH]; exact hrec),
    Exec.debugAssert_bind (by rw [← hb.len, ← hb.capacity, I.len_eq hH]; exact hrec), ← hb.toAlign]
  unfold Api.toAlign
  rw [I.alignNew hal]
  dsimp only
  rw [Exec.pure_bind_apply, Exec.pure_bind_apply, ← hb.byteCapacity, Exec.orUb_bind (I.byteCap_eq v1), Exec.orUb_bind (I.byteCap_eq v1)]
  have hun : ∀ {P : Provider V T β}, P.byteCapacity = D.byteCapacity → P.byteLen = D.byteLen →
      Api.unusedByteCap P v1 = some (I.unused v1 xs) := by
    intro P h2 h3
    unfold Api.unusedByteCap uncheckedSub
    have := I.width_le hH
    rw [h2, h3]
    simp only [I.byteCap_eq, I.byteLen_eq hH, Option.bind_eq_bind, Option.bind_some, if_pos this]
    rfl
  rw [Exec.orUb_bind (hun rfl rfl), Exec.orUb_bind (hun hb.byteCapacity.symm hb.byteLen.symm)]
  generalize hneed : b - I.unused v1 xs = needed
  have hrel : ∀ {v2 : V}, I.H v2 xs → Api.byteCapAssert c.release R b v2 = .ok () v2 := by
    intro v2 h2
    unfold Api.byteCapAssert
    rw [Exec.get_bind, ← hb.byteCapacity, ← hb.byteLen, Exec.orUb_bind (I.byteCap_eq v2), Exec.orUb_bind (I.byteLen_eq h2)]
    exact if_neg (fun h => by cases h.1)
  have hneeded : Api.reserveNeeded c.checked D env b needed al v1 = Api.reserveNeeded c.release R env b needed al v1 ∨
      ∃ e v', Api.reserveNeeded c.release R env b needed al v1 = .ok (.error e) v' ∧
        Api.reserveNeeded c.checked D env b needed al v1 = .panic v' := by
    unfold Api.reserveNeeded
    rw [← hb.addBytes]
    rcases I.addBytes hH he hal needed with ⟨v2, h2, hH2, hd2, hsp2, hm2, hc2, hid2, ht2, ha2, hac2, hf2, hr2⟩ | ⟨e, h2, hwhy, _⟩
    · rw [Exec.bind_ok h2, Exec.bind_ok h2, Exec.bind_ok (hrel hH2), Exec.bind_ok (I.byteCapAssert_ok hH2 ?_)]
      · exact .inl rfl
      · have := I.width_le hH
        have : I.unused v1 xs = I.bcap v1 - I.width v1 xs := rfl
        omega
    · rw [Exec.bind_ok h2, Exec.bind_ok h2, Exec.bind_ok (hrel hH)]
      rcases I.byteCapAssert_cases hH b with h3 | ⟨h3, _⟩
      · rw [Exec.bind_ok h3]; exact .inl rfl
      · rw [Exec.bind_panic h3]; exact .inr ⟨e, v1, rfl, rfl⟩
  by_cases hopt : (if needed > 0 then max needed (I.bcap v1) else 0) > needed
  · rw [if_pos hopt, if_pos hopt, ← hb.addBytes]
    rcases I.addBytes hH he hal (if needed > 0 then max needed (I.bcap v1) else 0) with ⟨v2, h2, _⟩ | ⟨e, h2, _, _⟩
    · rw [Exec.bind_ok h2, Exec.bind_ok h2]; exact .inl rfl
    · rw [Exec.bind_ok h2, Exec.bind_ok h2]; exact hneeded
  · rw [if_neg hopt, if_neg hopt]; exact hneeded

theorem reserve_builds (hb : D.Builds R) (h : I.H v xs) {env : Env (Val T β)} (he : I.EnvOk env) (n b : Nat) {al : Nat}
    (hal : IsAlign c.checked al) :
    PanicOrAbort True (Api.reserveCapacityBytesAlign c.checked D env n b al v) (Api.reserveCapacityBytesAlign c.release R env n b al v) := by
  unfold Api.reserveCapacityBytesAlign
  rcases I.attempt_builds hb h he n b hal with h1 | ⟨e, v', h1, h2⟩
  · exact .bind (.inl h1) fun _ _ _ => rfl
  · rw [Exec.bind_ok h1, Exec.bind_panic h2]
    cases e with
    | capacityOverflow => exact .inl rfl
    | allocError => exact .inr ⟨trivial, rfl, v', rfl⟩

theorem push_builds (hb : D.Builds R) (h : I.H v xs) {env : Env (Val T β)} (he : I.EnvOk env) {x : Val T β} (hx : x.WF c.checked)
    (hg : I.guard v x.size x.align) (hr : I.fits v x.align → I.roomy v xs x.size) :
    PanicOrAbort True (Api.push c.checked D env x v) (Api.push c.release R env x v) := by
  unfold Api.push
  refine .bind (I.reserve_builds hb h he 1 x.size hx.align_pow) fun _ v1 h1 => ?_
  have hE := I.reserveCapacityBytesAlign_meets h he 1 x.size hx.align_pow
  rw [h1] at hE
  obtain ⟨v2, h2, _⟩ := I.push hE.holds hx (hE.fits x.size (Nat.le_refl _) hg) hE.recs hE.room
    (hE.roomy _ (Nat.le_refl _) hr (hE.fits x.size (Nat.le_refl _) hg))
  exact (hb.push x).of_ok h2

theorem insert_builds (hb : D.Builds R) (h : I.H v xs) {env : Env (Val T β)} (he : I.EnvOk env) {x : Val T β} (hx : x.WF c.checked)
    (hg : I.guard v x.size x.align) (hr : I.fits v x.align → I.roomy v xs x.size) {k : Nat} (hk : k ≤ xs.length)
    (hp : ∀ v', I.Enlarged env v v' xs 1 x.size x.align → I.insPlain v' xs k) :
    PanicOrAbort True (Api.insert c.checked D env k x v) (Api.insert c.release R env k x v) := by
  unfold Api.insert
  rw [Exec.get_bind, Exec.get_bind, Exec.assert_bind (by rw [I.len_eq h]; exact hk),
    Exec.assert_bind (by rw [← hb.len, I.len_eq h]; exact hk)]
  refine .bind (I.reserve_builds hb h he 1 x.size hx.align_pow) fun _ v1 h1 => ?_
  have hE := I.reserveCapacityBytesAlign_meets h he 1 x.size hx.align_pow
  rw [h1] at hE
  obtain ⟨v2, h2, _⟩ := I.insert hE.holds hx (hE.fits x.size (Nat.le_refl _) hg) hE.recs hE.room
    (hE.roomy _ (Nat.le_refl _) hr (hE.fits x.size (Nat.le_refl _) hg)) hk (hp v1 hE)
  exact (hb.insert k x).of_ok h2

end Impl

/-! ## Clients -/

/-- What has to be known of an implementation. -/
structure Agreement (X : Prop) (c : Cfg) (D R : Machine V T β) (K : Client c.checked D) (Ok : Op T β → Prop) : Prop where
  builds : D.Builds R
  push : ∀ {v xs env x}, K.H v xs → K.EnvOk env → x.WF c.checked → K.Covered env (.push x) v xs →
    PanicOrAbort X (Api.push c.checked D.P env x v) (Api.push c.release R.P env x v)
  insert : ∀ {v xs env x i}, K.H v xs → K.EnvOk env → x.WF c.checked → K.Covered env (.insert i x) v xs → i ≤ xs.length →
    PanicOrAbort X (Api.insert c.checked D.P env i x v) (Api.insert c.release R.P env i x v)
  attempt : ∀ {v xs env q}, K.H v xs → K.EnvOk env → K.Covered env (.tryReserve q) v xs → Ok (.tryReserve q) → q.Asserts →
    q.attempt c.checked D.P env v = q.attempt c.release R.P env v ∨
      ∃ _ : X, ∃ e v', q.attempt c.release R.P env v = .ok (.error e) v' ∧ q.attempt c.checked D.P env v = .panic v'
  reserve : ∀ {v xs env q}, K.H v xs → K.EnvOk env → K.Covered env (.reserve q) v xs → Ok (.reserve q) → q.Asserts →
    PanicOrAbort X (q.run c.checked D.P env v) (q.run c.release R.P env v)
  shrink : ∀ {v xs env q}, K.H v xs → K.EnvOk env → K.Covered env (.shrink q) v xs →
    q.run c.checked D.P env v = q.run c.release R.P env v

namespace Agreement
variable {X : Prop} {D R : Machine V T β} {K : Client c.checked D} {Ok : Op T β → Prop}

/-- A covered call does the same in both builds, or the debug build panics where the release build reports failure. -/
theorem exec (A : Agreement X c D R K Ok) {v : V} {xs : List (Val T β)} (h : K.H v xs) {env : Env (Val T β)} (he : K.EnvOk env) {op : Op T β}
    (hw : op.WF c.checked xs) (hc : K.Covered env op v xs) (ho : Ok op) :
    op.exec c.checked D env v = op.exec c.release R env v ∨
      (X ∧ op.PanicsOnFailure (op.exec c.checked D env v) (op.exec c.release R env v)) := by
  have hgive : ∀ {x : Val T β} {d r : Exec V Unit}, PanicOrAbort X (d v) (r v) →
      PanicOrAbort X ((D.giving env x d >>= fun _ => pure Out.done : Exec V (Out T β)) v)
        ((R.giving env x r >>= fun _ => pure Out.done : Exec V (Out T β)) v) := by
    intro x d r hp
    rcases hp with hp | ⟨hX, hp, v', hp'⟩
    · rcases A.builds.giving (d := d) (r := r) env x (.inl hp) with h1 | ⟨v', h1, _⟩ | ⟨h1, _⟩
      · exact .inl h1
      all_goals
        refine .inl ?_
        have : D.giving env x d v = R.giving env x r v := by
          unfold Machine.giving Exec.onUnwind
          rw [hp, A.builds.dropArg]
        rw [Exec.bind_apply, Exec.bind_apply, this]
    · have hr : (R.giving env x r >>= fun _ => pure Out.done : Exec V (Out T β)) v = .abort := by
        refine Exec.bind_abort ?_
        unfold Machine.giving Exec.onUnwind
        rw [hp]
      rcases A.builds.giving (d := d) (r := r) env x (.inr ⟨v', hp'⟩) with h1 | ⟨v', h1, _⟩ | ⟨h1, _⟩
      · exact .inl h1
      · exact .inr ⟨hX, hr, v', h1⟩
      · exact .inl (h1.trans hr.symm)
  cases op with
  | push x => exact hgive (A.push h he hw hc)
  | insert i x =>
    by_cases hi : i ≤ xs.length
    · exact hgive (A.insert h he hw hc hi)
    · have h1 := K.insert_out (env := env) (x := x) h (Nat.lt_of_not_le hi)
      have h2 : Api.insert c.release R.P env i x v = .panic v := by
        unfold Api.insert
        rw [Exec.get_bind]
        exact Exec.assert_bind_neg (p := i ≤ R.P.len v) (by rw [← A.builds.P.len, K.len h]; exact hi) _ _
      exact hgive (.inl (h1.trans h2.symm))
  | reserve q =>
    by_cases hq : q.Asserts
    · rcases A.reserve h he hc ho hq with h1 | ⟨hX, h1, v', h2⟩
      · refine .inl ?_
        show (q.run c.checked D.P env >>= fun _ => pure Out.done : Exec V (Out T β)) v = (q.run c.release R.P env >>= fun _ => pure Out.done : Exec V (Out T β)) v
        rw [Exec.bind_apply, Exec.bind_apply, h1]
      · exact .inr ⟨hX, hq, Exec.bind_abort h1, v', Exec.bind_panic h2⟩
    · exact .inl (congrFun (A.builds.exec_eq env (op := .reserve q) hq) v)
  | tryReserve q =>
    by_cases hq : q.Asserts
    · rcases A.attempt h he hc ho hq with h1 | ⟨hX, e, v', h1, h2⟩
      · refine .inl ?_
        dsimp only [Op.exec]
        rw [Exec.bind_apply, Exec.bind_apply, h1]
      · refine .inr ⟨hX, hq, e, v', ?_, Exec.bind_panic h2⟩
        dsimp only [Op.exec]
        rw [Exec.bind_ok h1]
        rfl
    · exact .inl (congrFun (A.builds.exec_eq env (op := .tryReserve q) hq) v)
  | shrink q =>
    refine .inl ?_
    show (q.run c.checked D.P env >>= fun _ => pure Out.done : Exec V (Out T β)) v = (q.run c.release R.P env >>= fun _ => pure Out.done : Exec V (Out T β)) v
    rw [Exec.bind_apply, Exec.bind_apply, A.shrink h he hc]
  | _ => exact .inl (congrFun (A.builds.exec_eq env id) v)

/-- A program of covered calls that observes no failed reservation in the release build does the same in the debug build. -/
theorem runOps (A : Agreement X c D R K Ok) : ∀ (ops : List (Env (Val T β) × Op T β)) (v : V) (s : Ideal T β),
    Tracks D K.H v s → Along c.checked D K.H (fun env op v xs => (K.EnvOk env ∧ op.WF c.checked xs ∧ K.Covered env op v xs) ∧ Ok op) ops v s →
    ∀ {os : List (Out T β)} {v' : V}, Verif.runOps c.release R ops v = .ok os v' → (∀ e, .failed e ∉ os) →
      Verif.runOps c.checked D ops v = .ok os v'
  | [], v, s, _, _, os, v', hr, _ => hr
  | (env, op) :: rest, v, s, ht, hs, os, v', hr, hp => by
    obtain ⟨⟨⟨he, hw, hc⟩, ho⟩, hrest⟩ := hs
    have hbind : ∀ {γ : Type} {m : Exec V γ} {f : γ → Exec V (List (Out T β))} {s : V}, (m >>= f) s = .ok os v' →
        ∃ a t, m s = .ok a t ∧ f a t = .ok os v' := by
      intro γ m f s hm
      cases hms : m s with
      | ok a t => exact ⟨a, t, rfl, by rw [Exec.bind_ok hms] at hm; exact hm⟩
      | panic t => rw [Exec.bind_panic hms] at hm; cases hm
      | abort => rw [Exec.bind_abort hms] at hm; cases hm
      | ub => rw [Exec.bind_ub hms] at hm; cases hm
    unfold Verif.runOps at hr ⊢
    obtain ⟨o, v1, h1, h2⟩ := hbind hr
    obtain ⟨os', v2, h3, h4⟩ := hbind h2
    cases h4
    have hne : ∀ e w, op.exec c.release R env v ≠ .ok (.failed e) w := by
      intro e w h5
      have h6 : caught (op.exec c.release R env) v = .ok (.failed e) w := by
        unfold caught
        rw [h5]
      rw [h6] at h1
      cases h1
      exact hp e (.head _)
    have hna : op.exec c.release R env v ≠ .abort := by
      intro h5
      have h6 : caught (op.exec c.release R env) v = .abort := by
        unfold caught
        rw [h5]
      rw [h6] at h1
      cases h1
    have heq : op.exec c.checked D env v = op.exec c.release R env v := by
      rcases A.exec ht.1 he hw hc ho with h5 | ⟨_, h5⟩
      · exact h5
      · unfold Op.PanicsOnFailure at h5
        split at h5
        · exact absurd h5.1 hna
        · exact absurd h5.1 hna
        · exact absurd h5.2.1 hna
        · obtain ⟨_, e, w, h6, _⟩ := h5
          exact absurd h6 (hne e w)
        · exact h5.elim
    have hca : caught (op.exec c.checked D env) v = .ok o v1 := by
      rw [← h1]
      unfold caught
      rw [heq]
    rcases Client.Good.caught_ok K (K.step he ht op hw hc) with ⟨o', w, s1, h5, h6, h7⟩ | ⟨h5, _⟩
    · rw [hca] at h5
      cases h5
      rw [Exec.bind_ok hca, Exec.bind_ok (runOps A rest v1 s1 h6 (hrest o v1 s1 hca h6 (h7.weaken fun _ => trivial)) h3
        fun e h8 => hp e (.tail _ h8))]
      rfl
    · rw [hca] at h5; cases h5

/-- If memory is not short, a covered call does the same in both builds. -/
theorem exec_plenty (A : Agreement X c D R K Ok) {v : V} {s : Ideal T β} (h : Tracks D K.H v s) {env : Env (Val T β)} (he : K.EnvOk env)
    {op : Op T β} (hw : op.WF c.checked s.contents) (hc : K.Covered env op v s.contents) (ho : Ok op)
    (hs : ¬ K.Short env op v s.contents) : op.exec c.checked D env v = op.exec c.release R env v := by
  rcases A.exec h.1 he hw hc ho with h1 | ⟨_, h1⟩
  · exact h1
  · have hpan : ∀ {v'}, op.exec c.checked D env v = .panic v' → op.onList env.dropPanics s = (.panicked, (op.onList env.dropPanics s).2) := by
      intro v' h2
      have h3 : caught (op.exec c.checked D env) v = .ok .panicked v' := by
        unfold caught
        rw [h2]
      rcases Client.Good.caught_ok K (K.step he h op hw hc) with ⟨o, w, s1, h4, _, h5⟩ | ⟨h4, _⟩
      · rw [h3] at h4
        cases h4
        rcases h5 with h5 | ⟨h5, _⟩
        · rw [← h5]
        · exact absurd h5 hs
      · rw [h3] at h4; cases h4
    unfold Op.PanicsOnFailure at h1
    split at h1
    · obtain ⟨_, v', h2⟩ := h1
      cases hpan h2
    · obtain ⟨h3, v', h2⟩ := h1
      have h4 := hpan h2
      rename_i i x
      by_cases hi : i ≤ s.contents.length
      · dsimp only [Op.onList] at h4
        rw [if_pos hi] at h4
        cases h4
      · have h5 : Api.insert c.release R.P env i x v = .panic v := by
          unfold Api.insert
          rw [Exec.get_bind]
          exact Exec.assert_bind_neg (p := i ≤ R.P.len v) (by rw [← A.builds.P.len, K.len h.1]; exact hi) _ _
        have h6 := K.insert_out (env := env) (x := x) h.1 (Nat.lt_of_not_le hi)
        have : D.giving env x (Api.insert c.checked D.P env i x) v = R.giving env x (Api.insert c.release R.P env i x) v := by
          unfold Machine.giving Exec.onUnwind
          rw [h5, h6, A.builds.dropArg]
        dsimp only [Op.exec]
        rw [Exec.bind_apply, Exec.bind_apply, this]
    · obtain ⟨_, _, v', h2⟩ := h1
      cases hpan h2
    · obtain ⟨_, e, v', _, h2⟩ := h1
      cases hpan h2
    · exact h1.elim

/-- If the covered calls of a program do the same in both builds, so does the program. -/
theorem runOps_eq (K : Client c.checked D) (R : Machine V T β) : ∀ (ops : List (Env (Val T β) × Op T β)) (v : V) (s : Ideal T β), Tracks D K.H v s →
    Along c.checked D K.H (fun env op v xs => (K.EnvOk env ∧ op.WF c.checked xs ∧ K.Covered env op v xs) ∧
      ∀ ds, Tracks D K.H v ⟨xs, ds⟩ → op.exec c.checked D env v = op.exec c.release R env v) ops v s →
    Verif.runOps c.checked D ops v = Verif.runOps c.release R ops v
  | [], v, s, _, _ => rfl
  | (env, op) :: rest, v, s, ht, hs => by
    obtain ⟨⟨⟨he, hw, hc⟩, heq⟩, hrest⟩ := hs
    have hca : caught (op.exec c.checked D env) v = caught (op.exec c.release R env) v := by
      unfold caught
      rw [heq s.dropped ht]
    unfold Verif.runOps
    rcases Client.Good.caught_ok K (K.step he ht op hw hc) with ⟨o, w, s1, h5, h6, h7⟩ | ⟨h5, _⟩
    · rw [Exec.bind_ok h5, Exec.bind_ok (hca.symm.trans h5), Exec.bind_apply, Exec.bind_apply,
        runOps_eq K R rest w s1 h6 (hrest o w s1 h5 h6 (h7.weaken fun _ => trivial))]
    · rw [Exec.bind_abort h5, Exec.bind_abort (hca.symm.trans h5)]

end Agreement

/-! ## The three implementations -/

section
variable [Inhabited β]

theorem unaligned_agree (G : Prop) (T : UTy) :
    Agreement (β := β) True c (unalignedM c.checked T) (unalignedM c.release T) (UVec.client G c.checked T) (fun _ => True) where
  builds := unaligned_builds T
  push {v xs env x} h he hx hc :=
    (UVec.impl G c.checked T).push_builds (unaligned_builds T).P h he hx hc.1 (h.roomOk hc.2)
  insert {v xs env x i} h he hx hc hi := by
    refine (UVec.impl G c.checked T).insert_builds (unaligned_builds T).P h he hx hc.1 (h.roomOk hc.2.1) hi (fun v' hE => ?_)
    have h1 : x.align ≤ v'.align := hE.fits x.size (Nat.le_refl _) hc.1
    have h2 : v'.align = max v.align x.align := by
      rcases hE.alignCases with h3 | h3
      · exact h3
      · have h3 : v'.align = v.align := h3
        rw [h3]; rw [h3] at h1; exact (Nat.max_eq_left h1).symm
    exact ⟨by rw [h2]; exact (hc.2.2 hi).1, by rw [h2]; exact (hc.2.2 hi).2⟩
  attempt {v xs env q} h he hc _ hq := by
    cases q with
    | capBytes n b => exact ((UVec.impl G c.checked T).attempt_builds (unaligned_builds T).P h he n b hc).imp id fun h => ⟨trivial, h⟩
    | capBytesAlign n b al => exact ((UVec.impl G c.checked T).attempt_builds (unaligned_builds T).P h he n b hc).imp id fun h => ⟨trivial, h⟩
    | _ => exact hq.elim
  reserve {v xs env q} h he hc _ hq := by
    cases q with
    | capBytes n b => exact (UVec.impl G c.checked T).reserve_builds (unaligned_builds T).P h he n b hc
    | capBytesAlign n b al => exact (UVec.impl G c.checked T).reserve_builds (unaligned_builds T).P h he n b hc
    | _ => exact hq.elim
  shrink {v xs env q} h he hc := by
    have h1 := (UVec.client G c.checked T).shrink h he hc
    rcases (unaligned_builds T).P.shrinking env q v with h2 | ⟨v', h2⟩
    · exact h2
    · rw [h2] at h1
      exact h1.elim

theorem aligned_agree {A : ATy} (hA : A.Lawful c.checked) :
    Agreement (β := β) True c (alignedM c.checked A) (alignedM c.release A) (AVec.client hA) (fun _ => True) where
  builds := aligned_builds A
  push {v xs env x} h he hx hc :=
    (AVec.implF hA.fits).push_builds (aligned_builds A).P h he hx (fun _ _ => trivial) (fun _ => trivial)
  insert {v xs env x i} h he hx hc hi :=
    (AVec.implF hA.fits).insert_builds (aligned_builds A).P h he hx (fun _ _ => trivial) (fun _ => trivial) hi (fun _ _ => hc hi)
  attempt {v xs env q} h he hc _ hq := by
    have h1 : IsAlign c.checked 1 := isAlign_one_of hA.al
    cases q with
    | capBytes n b => exact ((AVec.implF hA.fits).attempt_builds (aligned_builds A).P h he n b (al := 1) h1).imp id fun h => ⟨trivial, h⟩
    | capBytesAlign n b al => exact ((AVec.implF hA.fits).attempt_builds (aligned_builds A).P h he n b (al := 1) h1).imp id fun h => ⟨trivial, h⟩
    | _ => exact hq.elim
  reserve {v xs env q} h he hc _ hq := by
    have h1 : IsAlign c.checked 1 := isAlign_one_of hA.al
    cases q with
    | capBytes n b => exact (AVec.implF hA.fits).reserve_builds (aligned_builds A).P h he n b h1
    | capBytesAlign n b al => exact (AVec.implF hA.fits).reserve_builds (aligned_builds A).P h he n b (al := 1) h1
    | _ => exact hq.elim
  shrink {v xs env q} h he hc := by
    have h1 := (AVec.client hA).shrink h he hc
    rcases (aligned_builds A).P.shrinking env q v with h2 | ⟨v', h2⟩
    · exact h2
    · rw [h2] at h1
      exact h1.elim

theorem SVec.attempt_builds {sz al : Nat} {v : SVec sz al β} {xs : List (Val (sizedTy sz al) β)} (h : v.Holds c.checked xs)
    (env : Env (Val (sizedTy sz al) β)) {q : Reservation} (hz : 0 < sz) (hq : q.bytes ≤ q.slots * sz) :
    q.attempt c.checked (sizedP c.checked sz al) env v = q.attempt c.release (sizedP c.release sz al) env v := by
  have h1 := SVec.attempt_any h env q (.inl hz)
  rcases (sized_builds sz al).P.attempt env q v with h2 | ⟨v', h2⟩
  · exact h2
  · rw [show q.attempt c.checked (sizedP c.checked sz al) env v = _ from h2] at h1
    exact absurd hq h1.2.2.2.2.2.2

theorem SVec.reserve_builds {sz al : Nat} {v : SVec sz al β} {xs : List (Val (sizedTy sz al) β)} (h : v.Holds c.checked xs)
    (env : Env (Val (sizedTy sz al) β)) {n b a : Nat} (hz : 0 < sz) (hq : b ≤ n * sz) :
    Api.reserveCapacityBytesAlign c.checked (sizedP c.checked sz al) env n b a v =
      Api.reserveCapacityBytesAlign c.release (sizedP c.release sz al) env n b a v := by
  have h1 : Api.tryReserveCapacityBytesAlign c.checked (sizedP c.checked sz al) env n b a v =
      Api.tryReserveCapacityBytesAlign c.release (sizedP c.release sz al) env n b a v :=
    SVec.attempt_builds h env (q := .capBytesAlign n b a) hz hq
  unfold Api.reserveCapacityBytesAlign
  rw [Exec.bind_apply, Exec.bind_apply, h1]

theorem sized_agree {sz al : Nat} :
    Agreement (β := β) False c (sizedM c.checked sz al) (sizedM c.release sz al) SVec.client (Op.Fitting sz) where
  builds := sized_builds sz al
  push {v xs env x} h he hx hc := by
    show PanicOrAbort False ((Api.reserveCapacityBytesAlign _ _ _ _ _ _ >>= fun _ => SVec.pushUnchecked _ x) v)
      ((Api.reserveCapacityBytesAlign _ _ _ _ _ _ >>= fun _ => SVec.pushUnchecked _ x) v)
    refine .bind (.inl (SVec.reserve_builds h env hc (Nat.le_of_eq (Nat.one_mul _).symm))) fun _ v1 h1 => ?_
    have hg := SVec.reserveFor_meets h hc env x
    rw [show Api.reserveCapacityBytesAlign c.checked (sizedP c.checked sz al) env 1 x.size x.align v = _ from h1] at hg
    obtain ⟨v2, h2, _⟩ := SVec.pushUnchecked_eq hg.holds hx hg.room
    exact ((sized_builds sz al).P.push x).of_ok h2
  insert {v xs env x i} h he hx hc hi := by
    unfold Api.insert
    rw [Exec.get_bind, Exec.get_bind, Exec.assert_bind (by show i ≤ v.len; rw [h.len]; exact hi),
      Exec.assert_bind (by show i ≤ v.len; rw [h.len]; exact hi)]
    refine .bind (.inl (SVec.reserve_builds h env (hc hi) (Nat.le_of_eq (Nat.one_mul _).symm))) fun _ v1 h1 => ?_
    have hg := SVec.reserveFor_meets h (hc hi) env x
    rw [show Api.reserveCapacityBytesAlign c.checked (sizedP c.checked sz al) env 1 x.size x.align v = _ from h1] at hg
    obtain ⟨v2, h2, _⟩ := SVec.insertUnchecked_eq hg.holds hx hg.room hi
    exact ((sized_builds sz al).P.insert i x).of_ok h2
  attempt {v xs env q} h he hc ho hq := by
    cases q with
    | capBytes n b => exact .inl (SVec.attempt_builds h env (hc.resolve_right (by rintro ⟨_, h | h⟩ <;> cases h)) (ho hq))
    | capBytesAlign n b al => exact .inl (SVec.attempt_builds h env (hc.resolve_right (by rintro ⟨_, h | h⟩ <;> cases h)) (ho hq))
    | _ => exact hq.elim
  reserve {v xs env q} h he hc ho hq := by
    cases q with
    | capBytes n b => exact .inl (SVec.reserve_builds h env (hc.resolve_right (by rintro ⟨_, h⟩; cases h)) (ho hq))
    | capBytesAlign n b al => exact .inl (SVec.reserve_builds h env (hc.resolve_right (by rintro ⟨_, h⟩; cases h)) (ho hq))
    | _ => exact hq.elim
  shrink {v xs env q} h he hc := by
    have h1 := SVec.client.shrink h he hc
    rcases (sized_builds sz al).P.shrinking env q v with h2 | ⟨v', h2⟩
    · exact h2
    · rw [h2] at h1
      exact h1.elim

end
end Verif
