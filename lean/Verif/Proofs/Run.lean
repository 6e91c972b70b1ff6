import Verif.Spec.Emplace
import Verif.Model.Sinks
import Verif.Proofs.Exec

/-!
# The complete exchange between an emplacable and an emplacer
-/

namespace Verif
variable {σ τ : Type} {T : UTy} {β : Type}

theorem MetaOk.wf {c : Cfg} {x : Val T β} (h : MetaOk c x.md) (hb : x.bytes.length = x.size) : x.WF c :=
  ⟨hb, h.align_pow, h.align_dvd, h.size_le⟩

theorem Val.WF.metaOk {c : Cfg} {x : Val T β} (h : x.WF c) : MetaOk c x.md :=
  ⟨h.align_pow, h.align_dvd, h.size_le⟩

/-- The simplest source respects the safety contract. -/
theorem given_sound {c : Cfg} {x : Val T β} (hx : x.WF c) (env : Env (Val T β)) (ds : List (Val T β)) :
    Emplacable.Sound c (given env x) ds where
  noUb := by intro h; cases h
  layout := by intro st s1 h; cases h; rfl
  metaOk := by intro st s1 h; cases h; exact hx.metaOk
  writeNoUb := by intro st s1 h h'; cases h; cases h'
  done := by intro st s1 bs s2 h h'; cases h; cases h'; exact ⟨hx.bytes_len, by intro h; cases h⟩
  unwind := by intro st s1 bs s2 h h'; cases h; cases h'

theorem given_runs {env : Env (Val T β)} {x y : Val T β} {ds : List (Val T β)} {r : Res (List (Val T β)) Unit}
    (h : Emplacable.Runs (given env x) ds y r) : y = x ∧ r = .ok () ds := by
  obtain ⟨st, s1, s2, h1, h2, h3, h4⟩ := h
  cases h1
  have h5 : x.md = y.md := h2
  have h6 : x.bytes = y.bytes ∧ ds = s2 := by
    have : (WriteRes.done x.bytes ds) = .done y.bytes s2 := h3
    injection this with a b; exact ⟨a, b⟩
  refine ⟨?_, ?_⟩
  · cases x; cases y
    cases h5; cases h6.1; rfl
  · rw [← h4, ← h6.2]; rfl

theorem given_no_unwind {env : Env (Val T β)} {x : Val T β} {ds s' : List (Val T β)}
    (h : Emplacable.Unwinds (given env x) ds s') : False := by
  rcases h with h | ⟨st, s1, bs, h1, h2⟩
  · cases h
  · cases h1; cases h2

theorem given_no_abort {env : Env (Val T β)} {x : Val T β} {ds : List (Val T β)}
    (h : Emplacable.Aborts (given env x) ds) : False := by
  rcases h with h | ⟨st, s1, h1, h2 | ⟨bs, s2, h2, h3⟩⟩
  · cases h
  · cases h1; cases h2
  · cases h1; cases h3

theorem liftL_ok {α : Type} {m : Exec σ α} {s s' : σ} {a : α} {t : τ} (h : m s = .ok a s') :
    liftL m (s, t) = .ok a (s', t) := by unfold liftL; rw [h]
theorem liftL_panic {α : Type} {m : Exec σ α} {s s' : σ} {t : τ} (h : m s = .panic s') :
    liftL m (s, t) = .panic (s', t) := by unfold liftL; rw [h]
theorem liftL_abort {α : Type} {m : Exec σ α} {s : σ} {t : τ} (h : m s = .abort) :
    liftL m (s, t) = .abort := by unfold liftL; rw [h]
theorem liftR_ok {α : Type} {m : Exec τ α} {s : σ} {t t' : τ} {a : α} (h : m t = .ok a t') :
    liftR m (s, t) = .ok a (s, t') := by unfold liftR; rw [h]
theorem liftR_panic {α : Type} {m : Exec τ α} {s : σ} {t t' : τ} (h : m t = .panic t') :
    liftR m (s, t) = .panic (s, t') := by unfold liftR; rw [h]
theorem liftR_abort {α : Type} {m : Exec τ α} {s : σ} {t : τ} (h : m t = .abort) :
    liftR m (s, t) = .abort := by unfold liftR; rw [h]

theorem liftL_ub {α : Type} {m : Exec σ α} {s : σ} {t : τ} (h : m s = .ub) :
    liftL m (s, t) = .ub := by unfold liftL; rw [h]
theorem liftR_ub {α : Type} {m : Exec τ α} {s : σ} {t : τ} (h : m t = .ub) :
    liftR m (s, t) = .ub := by unfold liftR; rw [h]

/-! ### `run`, once the emplacer has decided -/

theorem run_place {e : Emplacable σ T β} {m : Emplacer τ T β} {s s1 : σ} {t t1 : τ} {st : Started σ T β}
    {store : List β → Exec τ Unit} {commit rollback : Exec τ Unit} (he : e s = .ok st s1)
    (hm : m st.layout st.md t = .ok (.place store commit rollback) t1) :
    run e m (s, t) = (do placeInto st.write store rollback; liftR commit; liftL st.finish : Exec (σ × τ) Unit) (s1, t1) := by
  unfold run
  rw [Exec.bind_ok (liftL_ok he), Exec.bind_ok (liftR_ok hm)]

theorem run_dropIt {e : Emplacable σ T β} {m : Emplacer τ T β} {s s1 : σ} {t t1 : τ} {st : Started σ T β}
    {commit : Exec τ Unit} (he : e s = .ok st s1) (hm : m st.layout st.md t = .ok (.dropIt commit) t1) :
    run e m (s, t) = (do liftL st.dropVal; liftR commit; liftL st.finish : Exec (σ × τ) Unit) (s1, t1) := by
  unfold run
  rw [Exec.bind_ok (liftL_ok he), Exec.bind_ok (liftR_ok hm)]

theorem run_skip {e : Emplacable σ T β} {m : Emplacer τ T β} {s s1 : σ} {t t1 : τ} {st : Started σ T β}
    {commit : Exec τ Unit} (he : e s = .ok st s1) (hm : m st.layout st.md t = .ok (.skip commit) t1) :
    run e m (s, t) = (do liftR commit; liftL st.finish : Exec (σ × τ) Unit) (s1, t1) := by
  unfold run
  rw [Exec.bind_ok (liftL_ok he), Exec.bind_ok (liftR_ok hm)]

theorem run_prepPanic {e : Emplacable σ T β} {m : Emplacer τ T β} {s s1 : σ} {t t1 : τ} {st : Started σ T β}
    (he : e s = .ok st s1) (hm : m st.layout st.md t = .panic t1) : run e m (s, t) = .panic (s1, t1) := by
  unfold run
  rw [Exec.bind_ok (liftL_ok he), Exec.bind_panic (liftR_panic hm)]

theorem Prepared.Places.mono {p : Prepared τ β} {t : τ} {n : Nat} {B B' : τ → Prop} {A A' : List β → τ → Prop}
    (h : p.Places t n B A) (hB : ∀ t, B t → B' t) (hA : ∀ bs t, A bs t → A' bs t) : p.Places t n B' A' := by
  obtain ⟨store, commit, rollback, h1, h2, h3⟩ := h
  refine ⟨store, commit, rollback, h1, fun bs hb => ?_, fun bs hb => ?_⟩
  · obtain ⟨t2, t3, h4, h5, h6⟩ := h2 bs hb
    exact ⟨t2, t3, h4, h5, hB _ h6⟩
  · obtain ⟨t2, t3, h4, h5, h6⟩ := h3 bs hb
    exact ⟨t2, t3, h4, h5, hA _ _ h6⟩

/-- A sound emplacable and an emplacer that prepares a place: if the exchange returns, the value has been delivered; if
it unwinds, then the emplacer panicked while preparing the place, or the emplacable panicked before delivering the
value (and the destination is as before), or the emplacable panicked after delivering the value. -/
theorem run_meets {c : Cfg} {e : Emplacable σ T β} {m : Emplacer τ T β} {s : σ} {t : τ} {Before : τ → Prop}
    {After : Val T β → τ → Prop} {P : T.Meta → τ → Prop} {A : T.Meta → Prop} (hs : e.Sound c s) (hb : Before t)
    (hm : ∀ st s1, e s = .ok st s1 → (m ⟨T.sizeOf st.md, T.alignOf st.md⟩ st.md t).Meets
      (fun p t1 => p.Places t1 (T.sizeOf st.md) Before (fun bs => After ⟨st.md, bs⟩)) (P st.md) (A st.md)) :
    (run e m (s, t)).Meets
      (fun _ st => ∃ x : Val T β, x.WF c ∧ e.Runs s x (.ok () st.1) ∧ After x st.2)
      (fun st => (∃ md, e.Announces s md st.1 ∧ P md st.2) ∨ (e.Unwinds s st.1 ∧ Before st.2) ∨
        ∃ x : Val T β, x.WF c ∧ e.Runs s x (.panic st.1) ∧ After x st.2)
      ((∃ md s1, e.Announces s md s1 ∧ A md) ∨ e.Aborts s) := by
  unfold run
  cases he : e s with
  | ub => exact absurd he hs.noUb
  | abort => rw [Exec.bind_abort (liftL_abort he)]; exact .inr (.inl he)
  | panic s1 => rw [Exec.bind_panic (liftL_panic he)]; exact .inr (.inl ⟨.inl he, hb⟩)
  | ok st s1 =>
    rw [Exec.bind_ok (liftL_ok he), hs.layout st s1 he]
    have h1 := hm st s1 he
    cases hmm : m ⟨T.sizeOf st.md, T.alignOf st.md⟩ st.md t with
    | ub => rw [hmm] at h1; exact h1.elim
    | abort => rw [hmm] at h1; rw [Exec.bind_abort (liftR_abort hmm)]; exact .inl ⟨_, s1, ⟨st, he, rfl⟩, h1⟩
    | panic t1 => rw [hmm] at h1; rw [Exec.bind_panic (liftR_panic hmm)]; exact .inl ⟨_, ⟨st, he, rfl⟩, h1⟩
    | ok p t1 =>
      rw [hmm] at h1
      obtain ⟨store, commit, rollback, rfl, hroll, hcom⟩ := h1
      rw [Exec.bind_ok (liftR_ok hmm)]
      dsimp only
      cases hw : st.write s1 with
      | ub => exact absurd hw (hs.writeNoUb st s1 he)
      | abort =>
        rw [Exec.bind_abort]
        · exact .inr (.inr ⟨st, s1, he, .inl hw⟩)
        · unfold placeInto; dsimp only; rw [hw]
      | unwind bs s2 =>
        obtain ⟨t2, t3, hst, hrb, hB⟩ := hroll bs (hs.unwind st s1 bs s2 he hw)
        rw [Exec.bind_panic (s' := (s2, t3))]
        · exact .inr (.inl ⟨.inr ⟨st, s1, bs, he, hw⟩, hB⟩)
        · unfold placeInto
          dsimp only
          rw [hw]
          dsimp only
          unfold Exec.onUnwind
          rw [Exec.bind_ok (liftR_ok hst), Exec.panic_apply]
          dsimp only
          rw [liftR_ok hrb]
      | done bs s2 =>
        obtain ⟨hlen, hfin⟩ := hs.done st s1 bs s2 he hw
        obtain ⟨t2, t3, hst, hcm, hA⟩ := hcom bs hlen
        have hpl : placeInto st.write store rollback (s1, t1) = .ok () (s2, t2) := by
          unfold placeInto; dsimp only; rw [hw]; exact liftR_ok hst
        rw [Exec.bind_ok hpl, Exec.bind_ok (liftR_ok hcm)]
        · cases hf : st.finish s2 with
          | ub => exact absurd hf hfin
          | abort => rw [liftL_abort hf]; exact .inr (.inr ⟨st, s1, he, .inr ⟨bs, s2, hw, hf⟩⟩)
          | panic s3 =>
            rw [liftL_panic hf]
            exact .inr (.inr ⟨⟨st.md, bs⟩, (hs.metaOk st s1 he).wf hlen, ⟨st, s1, s2, he, rfl, hw, hf⟩, hA⟩)
          | ok u s3 =>
            rw [liftL_ok hf]
            exact ⟨⟨st.md, bs⟩, (hs.metaOk st s1 he).wf hlen, ⟨st, s1, s2, he, rfl, hw, hf⟩, hA⟩

/-- Dropping an emplacable. -/
theorem run_dropping {σ τ : Type} {T : UTy} {β : Type} (e : Emplacable σ T β) (s : σ) (t : τ) :
    run e Sink.dropping (s, t) = liftL (Source.drop e) (s, t) := by
  unfold run Source.drop
  cases he : (e s) with
  | ub => rw [Exec.bind_ub (liftL_ub he)]; unfold liftL; rw [Exec.bind_ub he]
  | abort => rw [Exec.bind_abort (liftL_abort he)]; unfold liftL; rw [Exec.bind_abort he]
  | panic s1 => rw [Exec.bind_panic (liftL_panic he)]; unfold liftL; rw [Exec.bind_panic he]
  | ok st s1 =>
    rw [Exec.bind_ok (liftL_ok he)]
    have hd : (liftR (Sink.dropping st.layout st.md) : Exec (σ × τ) (Prepared τ β)) (s1, t) = .ok (.dropIt (pure ())) (s1, t) := rfl
    rw [Exec.bind_ok hd]
    dsimp only
    cases hdv : st.dropVal s1 with
    | ub => rw [Exec.bind_ub (liftL_ub hdv)]; unfold liftL; rw [Exec.bind_ok he, Exec.bind_ub hdv]
    | abort => rw [Exec.bind_abort (liftL_abort hdv)]; unfold liftL; rw [Exec.bind_ok he, Exec.bind_abort hdv]
    | panic s2 => rw [Exec.bind_panic (liftL_panic hdv)]; unfold liftL; rw [Exec.bind_ok he, Exec.bind_panic hdv]
    | ok u s2 =>
      rw [Exec.bind_ok (liftL_ok hdv)]
      have hp : (liftR (pure ()) : Exec (σ × τ) Unit) (s2, t) = .ok () (s2, t) := rfl
      rw [Exec.bind_ok hp]
      unfold liftL
      rw [Exec.bind_ok he, Exec.bind_ok hdv]

/-- A panic in a function that owns an emplacable. -/
theorem rejectedWith {σ V : Type} {T : UTy} {β : Type} (e : Emplacable σ T β) (s : σ) (v : V) {p : Prop} [Decidable p] (h : ¬ p)
    (f : Unit → Exec (σ × V) Unit) :
    RejectedWith v (run e Sink.dropping (s, ())) ((Exec.onUnwind (Exec.assert p) (liftL (Source.drop e)) >>= f) (s, v)) := by
  rw [Exec.guardedAssert_bind_neg h, run_dropping]
  cases hd : Source.drop e s with
  | ok u s' => rw [liftL_ok hd, liftL_ok hd]; exact ⟨rfl, rfl⟩
  | panic s' => rw [liftL_panic hd, liftL_panic hd]; trivial
  | abort => rw [liftL_abort hd, liftL_abort hd]; trivial
  | ub => rw [liftL_ub hd, liftL_ub hd]; trivial

end Verif
