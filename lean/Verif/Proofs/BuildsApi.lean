import Verif.Proofs.BuildsOps
import Verif.Proofs.HistoryInst

/-!
# Debug and release builds: the public interface
-/

namespace Verif
variable {V : Type} {T : UTy} {β : Type} {c : Cfg}

namespace Provider.Builds
variable {D R : Provider V T β}

theorem toAlign (h : D.Builds R) (a : Nat) : Api.toAlign D a = Api.toAlign R a := by
  unfold Api.toAlign
  rw [h.alignNew]

theorem byteCapAssert (h : D.Builds R) (b : Nat) : (Api.byteCapAssert c.checked D b).Within (Api.byteCapAssert c.release R b) := by
  unfold Api.byteCapAssert
  simp only [h.byteCapacity, h.byteLen]
  exact .bind (.refl _) fun _ => .bind (.refl _) fun _ => .bind (.refl _) fun _ => .debugAssert _

theorem reserveNeeded (h : D.Builds R) (env : Env (Val T β)) (b needed a : Nat) :
    (Api.reserveNeeded c.checked D env b needed a).Within (Api.reserveNeeded c.release R env b needed a) := by
  unfold Api.reserveNeeded
  simp only [h.addBytes]
  exact .bind (.refl _) fun _ => .bind (h.byteCapAssert b) fun _ => .refl _

theorem tryReserveCapacityBytesAlign (h : D.Builds R) (env : Env (Val T β)) (n b a : Nat) :
    (Api.tryReserveCapacityBytesAlign c.checked D env n b a).Within (Api.tryReserveCapacityBytesAlign c.release R env n b a) := by
  unfold Api.tryReserveCapacityBytesAlign Api.tryReserve Api.unusedByteCap
  rw [h.capacity, h.len]
  simp only [h.tryReserve, h.toAlign, h.byteCapacity, h.byteLen, h.addBytes]
  refine .bind (.refl _) fun r => ?_
  cases r with
  | error e => exact .refl _
  | ok u =>
    refine .bind (.refl _) fun _ => .bind (.debugAssert _) fun _ => .bind (.refl _) fun _ => .bind (.refl _) fun _ =>
      .bind (.refl _) fun _ => .ite (.bind (.refl _) fun r => ?_) (h.reserveNeeded _ _ _ _)
    cases r with
    | error e => exact h.reserveNeeded _ _ _ _
    | ok u => exact .refl _

theorem tryReserveExactCapacityBytesAlign (h : D.Builds R) (env : Env (Val T β)) (n b a : Nat) :
    Api.tryReserveExactCapacityBytesAlign D env n b a = Api.tryReserveExactCapacityBytesAlign R env n b a := by
  unfold Api.tryReserveExactCapacityBytesAlign
  simp only [h.tryReserve, h.toAlign, h.addBytes]

theorem reserveCapacityBytesAlign (h : D.Builds R) (env : Env (Val T β)) (n b a : Nat) :
    (Api.reserveCapacityBytesAlign c.checked D env n b a).Within (Api.reserveCapacityBytesAlign c.release R env n b a) :=
  .bind (h.tryReserveCapacityBytesAlign env n b a) fun _ => .refl _

theorem attempt_eq (h : D.Builds R) (env : Env (Val T β)) {q : Reservation} (hq : ¬ q.Asserts) :
    q.attempt c.checked D env = q.attempt c.release R env := by
  cases q with
  | elems n => exact congrFun (congrFun h.tryReserve env) n
  | capBytes n b => exact absurd trivial hq
  | capBytesAlign n b al => exact absurd trivial hq
  | exact n => exact congrFun (congrFun h.tryReserveExact env) n
  | exactCapBytes n b => exact h.tryReserveExactCapacityBytesAlign env n b 1
  | exactCapBytesAlign n b al => exact h.tryReserveExactCapacityBytesAlign env n b al

theorem attempt (h : D.Builds R) (env : Env (Val T β)) (q : Reservation) :
    (q.attempt c.checked D env).Within (q.attempt c.release R env) := by
  cases q with
  | capBytes n b => exact h.tryReserveCapacityBytesAlign env n b 1
  | capBytesAlign n b al => exact h.tryReserveCapacityBytesAlign env n b al
  | _ => exact .of_eq (h.attempt_eq env id)

theorem run_eq (h : D.Builds R) (env : Env (Val T β)) {q : Reservation} (hq : ¬ q.Asserts) :
    q.run c.checked D env = q.run c.release R env := by
  have h1 : ∀ n b a, Api.reserveExactCapacityBytesAlign D env n b a = Api.reserveExactCapacityBytesAlign R env n b a := by
    intro n b a
    unfold Api.reserveExactCapacityBytesAlign
    rw [h.tryReserveExactCapacityBytesAlign]
  cases q with
  | elems n =>
    show Api.reserve D env n = Api.reserve R env n
    unfold Api.reserve Api.tryReserve
    rw [h.tryReserve]
  | capBytes n b => exact absurd trivial hq
  | capBytesAlign n b al => exact absurd trivial hq
  | exact n => exact h1 n 0 1
  | exactCapBytes n b => exact h1 n b 1
  | exactCapBytesAlign n b al => exact h1 n b al

theorem run (h : D.Builds R) (env : Env (Val T β)) (q : Reservation) : (q.run c.checked D env).Within (q.run c.release R env) := by
  cases q with
  | capBytes n b => exact h.reserveCapacityBytesAlign env n b 1
  | capBytesAlign n b al => exact h.reserveCapacityBytesAlign env n b al
  | _ => exact .of_eq (h.run_eq env id)

theorem shrinking (h : D.Builds R) (env : Env (Val T β)) (q : Shrinking) : (q.run c.checked D env).Within (q.run c.release R env) := by
  have h1 : ∀ n b a, (Api.shrinkCapacityBytesAlignTo D env n b a).Within (Api.shrinkCapacityBytesAlignTo R env n b a) := by
    intro n b a
    unfold Api.shrinkCapacityBytesAlignTo
    rw [h.toAlign]
    exact .bind (.refl _) fun _ => h.shrinkTo env _ _ _
  cases q with
  | toFit => exact h1 0 0 1
  | elems n => exact h1 n c.usizeMax (2 ^ (c.bits - 1))
  | capBytes n b => exact h1 n b (2 ^ (c.bits - 1))
  | capBytesAlign n b al => exact h1 n b al

theorem pushApi (h : D.Builds R) (env : Env (Val T β)) (x : Val T β) : (Api.push c.checked D env x).Within (Api.push c.release R env x) :=
  .bind (h.reserveCapacityBytesAlign env _ _ _) fun _ => h.push x

theorem insertApi (h : D.Builds R) (env : Env (Val T β)) (i : Nat) (x : Val T β) :
    (Api.insert c.checked D env i x).Within (Api.insert c.release R env i x) := by
  unfold Api.insert
  rw [h.len]
  exact .bind (.refl _) fun _ => .bind (.refl _) fun _ => .bind (h.reserveCapacityBytesAlign env _ _ _) fun _ => h.insert i x

theorem removeInto (h : D.Builds R) (env : Env (Val T β)) (i : Nat) : Api.removeInto D env i = Api.removeInto R env i := by
  funext v
  unfold Api.removeInto
  rw [Exec.get_bind, Exec.get_bind, h.len]
  by_cases hi : i < R.len v
  · rw [Exec.assert_bind hi, Exec.assert_bind hi]
    exact h.remove env v i hi
  · rw [Exec.assert_bind_neg hi, Exec.assert_bind_neg hi]

theorem popInto (h : D.Builds R) (env : Env (Val T β)) (v : V) :
    (R.len v = 0 ∧ Api.popInto D env v = none ∧ Api.popInto R env v = none) ∨
      ∃ d r, Api.popInto D env v = some d ∧ Api.popInto R env v = some r ∧ d v = r v := by
  unfold Api.popInto
  rw [h.len]
  by_cases hv : R.len v = 0
  · exact .inl ⟨hv, if_neg (fun h => h hv), if_neg (fun h => h hv)⟩
  · exact .inr ⟨_, _, if_pos hv, if_pos hv, h.pop env v hv⟩

theorem getApi (h : D.Builds R) : Api.get D = Api.get R := by
  funext v i
  unfold Api.get
  rw [h.len, h.get]

end Provider.Builds

namespace Machine.Builds
variable {D R : Machine V T β}

theorem dropArg (h : D.Builds R) (env : Env (Val T β)) (x : Val T β) : D.dropArg env x = R.dropArg env x := by
  unfold Machine.dropArg
  rw [h.note]

theorem storeAll (h : D.Builds R) : ∀ rs bss, Verif.storeAll D rs bss = Verif.storeAll R rs bss
  | [], _ => rfl
  | some _ :: _, [] => rfl
  | none :: _, [] => rfl
  | some r :: rs, bs :: bss => by
    unfold Verif.storeAll
    rw [h.store, storeAll h rs bss]
  | none :: rs, bs :: bss => by
    unfold Verif.storeAll
    rw [storeAll h rs bss]

theorem onRight {α : Type} (h : D.Builds R) (m : Exec (List (Val T β) × V) α) : Verif.onRight D m = Verif.onRight R m := by
  unfold Verif.onRight
  rw [h.note]

/-- A call that takes a value, when the debug build only panics early. -/
theorem giving (h : D.Builds R) (env : Env (Val T β)) (x : Val T β) {d r : Exec V Unit} {v : V} (hw : d v = r v ∨ ∃ v', d v = .panic v') :
    ((D.giving env x d >>= fun _ => pure Out.done : Exec V (Out T β)) v = (R.giving env x r >>= fun _ => pure Out.done : Exec V (Out T β)) v) ∨
      (∃ v', (D.giving env x d >>= fun _ => pure Out.done : Exec V (Out T β)) v = .panic v' ∧ env.dropPanics x = false) ∨
      ((D.giving env x d >>= fun _ => pure Out.done : Exec V (Out T β)) v = .abort ∧ env.dropPanics x = true) := by
  rcases hw with hw | ⟨v', hw⟩
  · refine .inl ?_
    have : D.giving env x d v = R.giving env x r v := by
      unfold Machine.giving Exec.onUnwind
      rw [hw, h.dropArg]
    rw [Exec.bind_apply, Exec.bind_apply, this]
  · refine .inr ?_
    by_cases hp : env.dropPanics x = true
    · refine .inr ⟨Exec.bind_abort ?_, hp⟩
      unfold Machine.giving Exec.onUnwind
      rw [hw]
      dsimp only
      unfold Machine.dropArg
      rw [Exec.modify_bind, if_pos hp]
      rfl
    · refine .inl ⟨D.note x v', Exec.bind_panic ?_, by simpa using hp⟩
      unfold Machine.giving Exec.onUnwind
      rw [hw]
      dsimp only
      unfold Machine.dropArg
      rw [Exec.modify_bind, if_neg hp]
      rfl

/-- Calls that evaluate no assertion that may fail. -/
theorem exec_eq (h : D.Builds R) (env : Env (Val T β)) {op : Op T β} (hop : ¬ op.Checks) :
    op.exec c.checked D env = op.exec c.release R env := by
  cases op with
  | push x => exact absurd trivial hop
  | pushWith s =>
    dsimp only [Op.exec]
    unfold Api.pushWithRun Api.pushWith
    rw [h.onRight, h.P.pushWith]
  | insert i x => exact absurd trivial hop
  | insertWith i s =>
    dsimp only [Op.exec]
    unfold Api.insertWithRun
    rw [h.onRight, h.P.insertWith, h.P.len]
  | pop d =>
    funext v
    dsimp only [Op.exec]
    rw [Exec.get_bind, Exec.get_bind]
    rcases h.P.popInto env v with ⟨_, h1, h2⟩ | ⟨e, e', h1, h2, h3⟩
    · rw [h1, h2]
    · rw [h1, h2]
      dsimp only
      have : onLeft none (run e d.code) v = onLeft none (run e' (d.code : Emplacer (Option (Val T β)) T β)) v := by
        unfold Verif.onLeft run
        rw [Exec.bind_apply, Exec.bind_apply, show liftL e (v, (none : Option (Val T β))) = liftL e' (v, none) from by
          unfold liftL; dsimp only; rw [h3]]
      rw [Exec.bind_apply, Exec.bind_apply, this]
  | remove i d =>
    dsimp only [Op.exec]
    rw [h.P.removeInto]
  | reserve q =>
    dsimp only [Op.exec]
    rw [h.P.run_eq env hop]
  | tryReserve q =>
    dsimp only [Op.exec]
    rw [h.P.attempt_eq env hop]
  | shrink q => exact absurd trivial hop
  | get i =>
    dsimp only [Op.exec]
    rw [h.P.getApi, h.read]
  | index i =>
    dsimp only [Op.exec]
    unfold Api.index
    rw [h.P.getApi, h.read]
  | set i bs =>
    dsimp only [Op.exec]
    rw [h.P.getApi, h.store]
  | len =>
    dsimp only [Op.exec]
    rw [h.P.len]
  | iter ks =>
    dsimp only [Op.exec]
    rw [h.calls, h.read]
  | iterMut ks bss =>
    dsimp only [Op.exec]
    simp only [h.calls, h.storeAll]

/-- Every call, in every state. -/
theorem exec (h : D.Builds R) (env : Env (Val T β)) (op : Op T β) (v : V) :
    op.StopsEarly env (op.exec c.checked D env v) (op.exec c.release R env v) := by
  have hgive : ∀ {x : Val T β} {op : Op T β} {d r : Exec V Unit}, op.Checks → (env.dropPanics x = true → op.Explosive env.dropPanics) →
      d.Within r → op.StopsEarly env ((D.giving env x d >>= fun _ => pure Out.done : Exec V (Out T β)) v)
        ((R.giving env x r >>= fun _ => pure Out.done : Exec V (Out T β)) v) := by
    intro x op d r hc hp hw
    rcases h.giving env x (hw v) with h1 | ⟨v', h1, _⟩ | ⟨h1, h2⟩
    · exact .inl h1
    · exact .inr ⟨hc, .inl ⟨v', h1⟩⟩
    · exact .inr ⟨hc, .inr ⟨h1, hp h2⟩⟩
  cases op with
  | push x => exact hgive trivial id (h.P.pushApi env x)
  | insert i x => exact hgive trivial id (h.P.insertApi env i x)
  | reserve q =>
    by_cases hq : q.Asserts
    · exact ((Exec.Within.bind (h.P.run env q) fun _ => .refl _) v).imp id fun h1 => ⟨hq, .inl h1⟩
    · exact .inl (congrFun (h.exec_eq env (op := .reserve q) hq) v)
  | tryReserve q =>
    by_cases hq : q.Asserts
    · exact ((Exec.Within.bind (h.P.attempt env q) fun _ => .refl _) v).imp id fun h1 => ⟨hq, .inl h1⟩
    · exact .inl (congrFun (h.exec_eq env (op := .tryReserve q) hq) v)
  | shrink q => exact ((Exec.Within.bind (h.P.shrinking env q) fun _ => .refl _) v).imp id fun h1 => ⟨trivial, .inl h1⟩
  | _ => exact .inl (congrFun (h.exec_eq env id) v)

/-- A program that observes no panic in the debug build does the same in the release build. -/
theorem runOps (h : D.Builds R) : ∀ (ops : List (Env (Val T β) × Op T β)) (v : V) {os : List (Out T β)} {v' : V},
    runOps c.checked D ops v = .ok os v' → .panicked ∉ os → Verif.runOps c.release R ops v = .ok os v'
  | [], v, os, v', hr, _ => hr
  | (env, op) :: rest, v, os, v', hr, hp => by
    unfold Verif.runOps at hr ⊢
    have hbind : ∀ {γ : Type} {m : Exec V γ} {f : γ → Exec V (List (Out T β))} {s : V}, (m >>= f) s = .ok os v' →
        ∃ a t, m s = .ok a t ∧ f a t = .ok os v' := by
      intro γ m f s hm
      cases hms : m s with
      | ok a t => exact ⟨a, t, rfl, by rw [Exec.bind_ok hms] at hm; exact hm⟩
      | panic t => rw [Exec.bind_panic hms] at hm; cases hm
      | abort => rw [Exec.bind_abort hms] at hm; cases hm
      | ub => rw [Exec.bind_ub hms] at hm; cases hm
    obtain ⟨o, v1, h1, h2⟩ := hbind hr
    obtain ⟨os', v2, h3, h4⟩ := hbind h2
    cases h4
    have ho : o ≠ .panicked := fun e => hp (by rw [e]; exact .head _)
    have hd : op.exec c.checked D env v = .ok o v1 := by
      unfold caught at h1
      cases hx : op.exec c.checked D env v with
      | ok a t => rw [hx] at h1; exact h1
      | panic t => rw [hx] at h1; cases h1; exact absurd rfl ho
      | abort => rw [hx] at h1; cases h1
      | ub => rw [hx] at h1; cases h1
    have hrel : op.exec c.release R env v = .ok o v1 := by
      rcases h.exec (c := c) env op v with h5 | ⟨_, ⟨t, h5⟩ | ⟨h5, _⟩⟩
      · rw [← h5]; exact hd
      · rw [hd] at h5; cases h5
      · rw [hd] at h5; cases h5
    have hc : caught (op.exec c.release R env) v = .ok o v1 := by
      unfold caught
      rw [hrel]
    rw [Exec.bind_ok hc, Exec.bind_ok (runOps h rest v1 h3 fun e => hp (.tail _ e))]
    rfl

end Machine.Builds
end Verif
